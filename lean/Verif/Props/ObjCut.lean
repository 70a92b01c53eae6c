import Verif.Lemmas.ObjCut
import Verif.Props.Cut
/-!
Property C95: a file in OBJ notation that was cut short, by a crash of the writer or by a full disk. The theorems hold for every conversion `rnd` of decimals to
doubles that keeps the integers up to 2^53.
-/
set_option exponentiation.threshold 2000
set_option linter.unusedSectionVars false
namespace City.Props
open City Spec Obj

/-- A list of named lists that was cut short: some whole ones, then a beginning of the next. -/
def Beginning {α : Type} (all kept : List (Text × List α)) : Prop :=
  kept = [] ∨ ∃ done n fs gs rest, all = done ++ (n, fs ++ gs) :: rest ∧ kept = done ++ [(n, fs)]

/-- Names and polygons of meshes, the points having been moved by `g`. -/
def shapes (g : V3 ℚ → V3 ℚ) (ms : List Mesh) : List (Text × List (List (Option (V3 ℚ)))) :=
  ms.map fun m => (m.name, (polygons m).map (·.map (·.map g)))

/-- The text consists of whole lines. -/
def WholeLines (p : Text) : Prop := p = [] ∨ ∃ a, p = a ++ ['\n']

/-! ### The lines that are left -/

/-- Lines that are looked at. -/
def keepLine (l : Text) : Bool := !(l.isEmpty || l.head? == some '#')

/-- The section of an object. -/
def objSec (p : Mesh × Nat) : Text × List Text := (' ' :: p.1.name, p.1.faces.map (fLine p.2))

theorem filter_objLines (p : Mesh × Nat) : (objLines p.1 p.2).filter keepLine = secLines (objSec p) := by
  simp only [objLines, secLines, objSec, List.filter_cons]
  simp only [keepLine, List.isEmpty_nil, Bool.true_or, Bool.not_true, Bool.false_eq_true, if_false, List.isEmpty_cons,
    List.head?_cons, Bool.false_or]
  rw [if_pos (by decide)]
  congr 1
  rw [List.filter_eq_self]
  intro l hl
  obtain ⟨f, -, rfl⟩ := List.mem_map.1 hl
  rfl

theorem lines_of_write {ms : List Mesh} : writeLines ms = (allPts ms).map vLine ++ (offs 0 ms).flatMap fun p => objLines p.1 p.2 := by
  unfold writeLines
  rw [zip_shifts]
  congr 1
  unfold allPts
  rw [List.map_flatMap]

theorem offs_name {ms : List Mesh} {p : Mesh × Nat} (hp : p ∈ offs 0 ms) : p.1 ∈ ms := by
  have := List.mem_map_of_mem (f := (·.1)) hp
  rwa [offs_fst] at this

theorem write_ok_lines {ms : List Mesh} (hn : ∀ m ∈ ms, '\n' ∉ m.name) : ∀ l ∈ writeLines ms, '\n' ∉ l := by
  intro l hl
  rw [lines_of_write] at hl
  rcases List.mem_append.1 hl with hl | hl
  · obtain ⟨p, -, rfl⟩ := List.mem_map.1 hl
    exact vLine_ok p
  · obtain ⟨p, hp, hl⟩ := List.mem_flatMap.1 hl
    unfold objLines at hl
    simp only [List.mem_cons, List.mem_map] at hl
    rcases hl with rfl | rfl | ⟨f, -, rfl⟩
    · simp
    · have := hn _ (offs_name hp); simpa using this
    · exact fLine_ok _ _

theorem cut_shape {ms : List Mesh} (hn : ∀ m ∈ ms, '\n' ∉ m.name) {p : Text} (hp : p <+: unlines (writeLines ms)) :
    ∃ j q, objContent p = ((writeLines ms).take j ++ if q = [] then [] else [q]).filter keepLine ∧ (q = [] ∨ ∃ l, (writeLines ms)[j]? = some l ∧ q <+: l) ∧
      (WholeLines p → q = []) := by
  obtain ⟨j, q, hpe, hq, hr⟩ := readlines_prefix (write_ok_lines hn) hp
  refine ⟨j, q, ?_, hq, ?_⟩
  · show (readlines p).filter keepLine = _
    rw [hr]
  · intro hw
    by_contra hq0
    rcases hw with rfl | ⟨a, ha⟩
    · have := congrArg List.length hpe
      have : 0 < q.length := List.length_pos_iff.2 hq0
      simp at *
      omega
    · have e := congrArg List.getLast? (hpe.symm.trans ha)
      rw [List.getLast?_append_of_ne_nil _ hq0] at e
      simp at e
      rcases hq with rfl | ⟨l, hl, hq⟩
      · exact hq0 rfl
      · exact write_ok_lines hn l (List.mem_of_getElem? hl) (hq.subset (List.mem_of_getLast? e))

/-- The last section when the text was cut. -/
inductive LastSec (whole : Prop) (ms : List Mesh) : List Mesh → List (Text × List Text) → Prop
  | none (rest : List Mesh) : LastSec whole ms rest []
  | name (m : Mesh) (rest : List Mesh) (n : Text) (hn : n <+: ' ' :: m.name) (hw : ¬ whole) : LastSec whole ms (m :: rest) [(n, [])]
  | faces (m : Mesh) (s : Nat) (rest : List Mesh) (fs gs : List Face) (hm : (m, s) ∈ offs 0 ms) (hf : m.faces = fs ++ gs) :
    LastSec whole ms (m :: rest) [(' ' :: m.name, fs.map (fLine s))]
  | part (m : Mesh) (s : Nat) (rest : List Mesh) (fs gs : List Face) (f : Face) (q : Text) (hm : (m, s) ∈ offs 0 ms) (hf : m.faces = fs ++ f :: gs)
    (hq : q <+: fLine s f) (h0 : q ≠ []) (hw : ¬ whole) : LastSec whole ms (m :: rest) [(' ' :: m.name, fs.map (fLine s) ++ [q])]

theorem filter_blocks (D : List (Mesh × Nat)) : (D.flatMap fun p => objLines p.1 p.2).filter keepLine = (D.map objSec).flatMap secLines := by
  rw [List.filter_flatMap, List.flatMap_map]
  congr 1
  funext p
  exact filter_objLines p

theorem filter_vLines (ps : List (V3 ℚ)) : (ps.map vLine).filter keepLine = ps.map vLine := by
  rw [List.filter_eq_self]
  intro l hl
  obtain ⟨p, -, rfl⟩ := List.mem_map.1 hl
  rfl

theorem filter_fLines (s : Nat) (fs : List Face) : (fs.map (fLine s)).filter keepLine = fs.map (fLine s) := by
  rw [List.filter_eq_self]
  intro l hl
  obtain ⟨p, -, rfl⟩ := List.mem_map.1 hl
  rfl

/-- What is left of the lines. -/
theorem cut_cases {ms : List Mesh} (hn : ∀ m ∈ ms, '\n' ∉ m.name) {p : Text} (hp : p <+: unlines (writeLines ms)) :
    (∃ (ps : List (V3 ℚ)) (q : List Text), objContent p = ps.map vLine ++ q ∧ (∀ x ∈ ps, ∃ m ∈ ms, x ∈ m.points) ∧
      (q = [] ∨ ∃ x l, (∃ m ∈ ms, x ∈ m.points) ∧ q = [l] ∧ l ≠ [] ∧ l <+: vLine x) ∧ (WholeLines p → q = [])) ∨
    ∃ (D : List (Mesh × Nat)) (rest : List Mesh) (last : List (Text × List Text)), ms = D.map (·.1) ++ rest ∧ (∀ d ∈ D, d ∈ offs 0 ms) ∧
      objContent p = (allPts ms).map vLine ++ (D.map objSec ++ last).flatMap secLines ∧ LastSec (WholeLines p) ms rest last := by
  obtain ⟨j, q, hc, hq, hw⟩ := cut_shape hn hp
  rw [hc]
  rw [lines_of_write] at hq ⊢
  have hmem : ∀ x ∈ allPts ms, ∃ m ∈ ms, x ∈ m.points := fun x hx => List.mem_flatMap.1 hx
  by_cases hj : j < (allPts ms).length
  · left
    rw [List.take_append_of_le_length (by simp; omega), List.filter_append, ← List.map_take, filter_vLines]
    refine ⟨(allPts ms).take j, _, rfl, fun x hx => hmem x (List.mem_of_mem_take hx), ?_, fun h => by rw [hw h]; rfl⟩
    rcases hq with rfl | ⟨l, hl, hq⟩
    · left; rfl
    · by_cases h0 : q = []
      · left; rw [h0]; rfl
      · right
        rw [List.getElem?_append_left (by simpa using hj), List.getElem?_map] at hl
        obtain ⟨x, hx, rfl⟩ := Option.map_eq_some_iff.1 hl
        refine ⟨x, q, hmem x (List.mem_of_getElem? hx), ?_, h0, hq⟩
        rw [if_neg h0]
        match q, h0, hq with
        | c :: q', _, hq =>
          unfold vLine at hq
          rw [List.cons_prefix_cons] at hq
          obtain ⟨rfl, -⟩ := hq
          rfl
  · right
    rw [List.take_append, List.take_of_length_le (by simp; omega), List.length_map, List.append_assoc, List.filter_append, filter_vLines]
    rw [List.getElem?_append_right (by simpa using hj), List.length_map] at hq
    generalize j - (allPts ms).length = k at hq ⊢
    by_cases hk : k < ((offs 0 ms).flatMap fun p => objLines p.1 p.2).length
    · obtain ⟨D, x, R, i, hD, hi, ht, hg⟩ := take_flatMap (fun p : Mesh × Nat => objLines p.1 p.2) (offs 0 ms) k hk
      have hms : ms = D.map (·.1) ++ x.1 :: R.map (·.1) := by
        have := offs_fst 0 ms
        rw [hD] at this
        simpa using this.symm
      have hx : x ∈ offs 0 ms := by rw [hD]; simp
      refine ⟨D, x.1 :: R.map (·.1), ?_⟩
      rw [hg] at hq
      rw [ht, List.append_assoc, List.filter_append, filter_blocks]
      have hmemD : ∀ d ∈ D, d ∈ offs 0 ms := fun d hd => by rw [hD]; simp [hd]
      have e3 : ∀ (a : List (Text × List Text)) b, (a ++ b).flatMap secLines = a.flatMap secLines ++ b.flatMap secLines := fun a b => List.flatMap_append
      match i, hi with
      | 0, _ =>
        have hq0 : q = [] := by
          rcases hq with h | ⟨l, hl, h⟩
          · exact h
          · simp [objLines] at hl
            subst hl
            simpa using h
        subst hq0
        exact ⟨[], hms, hmemD, by simp, .none _⟩
      | 1, _ =>
        by_cases hq0 : q = []
        · subst hq0
          exact ⟨[], hms, hmemD, by simp [objLines, keepLine], .none _⟩
        · rcases hq with h | ⟨l, hl, h⟩
          · exact absurd h hq0
          · simp [objLines] at hl
            subst hl
            match q, hq0, h with
            | c :: q', h0, h =>
              rw [List.cons_prefix_cons] at h
              obtain ⟨rfl, h⟩ := h
              refine ⟨[(q', [])], hms, hmemD, ?_, .name _ _ _ h fun hww => h0 (hw hww)⟩
              rw [e3]
              congr 2
      | i + 2, hi =>
        have htk : (objLines x.1 x.2).take (i + 2) = [] :: ('o' :: ' ' :: x.1.name) :: (x.1.faces.take i).map (fLine x.2) := by
          simp [objLines, List.map_take]
        have hkk : ∀ r, (([] :: ('o' :: ' ' :: x.1.name) :: (x.1.faces.take i).map (fLine x.2)) ++ r).filter keepLine =
            ('o' :: ' ' :: x.1.name) :: ((x.1.faces.take i).map (fLine x.2) ++ r.filter keepLine) := by
          intro r
          rw [List.filter_append]
          have := filter_fLines x.2 (x.1.faces.take i)
          simp only [List.filter_cons, keepLine] at this ⊢
          simp only [this]
          rfl
        rw [htk, hkk]
        by_cases hq0 : q = []
        · subst hq0
          refine ⟨_, hms, hmemD, ?_, .faces x.1 x.2 _ (x.1.faces.take i) (x.1.faces.drop i) hx (by simp)⟩
          rw [e3]
          congr 2
        · rcases hq with h | ⟨l, hl, h⟩
          · exact absurd h hq0
          · simp only [objLines, List.getElem?_cons_succ, List.getElem?_map] at hl
            obtain ⟨f, hf, rfl⟩ := Option.map_eq_some_iff.1 hl
            have hi2 : i < x.1.faces.length := by
              rw [List.getElem?_eq_some_iff] at hf; exact hf.1
            have hfe : x.1.faces[i] = f := by
              rw [List.getElem?_eq_some_iff] at hf; exact hf.2
            refine ⟨_, hms, hmemD, ?_, .part x.1 x.2 _ (x.1.faces.take i) (x.1.faces.drop (i + 1)) f q hx ?_ h hq0 fun hww => hq0 (hw hww)⟩
            · rw [e3]
              congr 2
              rw [if_neg hq0]
              match q, hq0, h with
              | c :: q', _, h =>
                unfold fLine at h
                rw [List.cons_prefix_cons] at h
                obtain ⟨rfl, -⟩ := h
                simp [secLines, keepLine]
            · rw [← hfe, List.getElem_cons_drop, List.take_append_drop]
    · have hq0 : q = [] := by
        rcases hq with h | ⟨l, hl, -⟩
        · exact h
        · rw [List.getElem?_eq_none (by omega)] at hl; cases hl
      subst hq0
      rw [List.take_of_length_le (by omega)]
      refine ⟨offs 0 ms, [], [], by rw [offs_fst]; simp, fun d hd => hd, ?_, .none _⟩
      simp [filter_blocks]

/-! ### What is read from them -/

theorem facetIndexes_fLine {rnd : ℚ → ℚ} (hr : ∀ n : ℕ, n ≤ 2 ^ 53 → rnd n = n) {s : Nat} {f : Face} (h : ∀ i ∈ f.points, i + s + 1 ≤ 2 ^ 53) :
    facetIndexes rnd (fLine s f) = f.points.map fun i => i + s + 1 := by
  unfold facetIndexes fLine
  rw [List.tail_cons, scanDecs_space rnd (by decide), scan_fLine hr h, List.map_map]
  apply List.map_congr_left
  intro i _
  exact Nat.floor_natCast _

theorem readObj_polys {rnd : ℚ → ℚ} {ps : List (V3 ℚ)} {o : Text × List Text} {r : Mesh} (h : readObj rnd ps o = .ok r) :
    r.name = o.1 ∧ polygons r = o.2.map fun l => (facetIndexes rnd l).map fun i => ps[i]? := by
  unfold readObj at h
  obtain ⟨⟨fs, seen⟩, h1, h⟩ := Out.bind_eq_ok.1 h
  obtain ⟨qs, h2, h⟩ := Out.bind_eq_ok.1 h
  cases h
  obtain ⟨idxs, hF, hs, hfs, h3⟩ := readFacets_spec h1
  refine ⟨rfl, ?_⟩
  have hidx : idxs = o.2.map (facetIndexes rnd) := by
    clear hs hfs h3 h1
    generalize o.2 = L at hF
    induction hF with
    | nil => rfl
    | @cons l is ls idxs hl hF ih =>
      rw [List.map_cons, ih]
      congr 1
      have := mapM_toIndex (scanDecs rnd l.tail)
      rw [hl] at this
      unfold facetIndexes
      have := this.resolve_left fun h => by cases h.2
      simpa using this.2
  unfold select at h2
  rw [Out.mapM_eq_ok] at h2
  have hq : ∀ (k i : Nat), seen[k]? = some i → qs[k]? = ps[i]? := by
    intro k i hk
    clear hs hfs h1
    simp only at h2
    clear * - h2 hk
    induction h2 generalizing k with
    | nil => simp at hk
    | @cons a b l1 l2 hab _ ih =>
      cases k with
      | zero =>
        simp at hk ⊢
        subst hk
        unfold Out.idx at hab
        split at hab <;> simp_all
      | succ k => simpa using ih k (by simpa using hk)
  show List.map (polygon qs) fs = _
  rw [hfs, hidx, List.map_map, List.map_map]
  apply List.map_congr_left
  intro l hl
  simp only [Function.comp, polygon, List.map_map]
  apply List.map_congr_left
  intro i hi
  simp only [Function.comp]
  apply hq
  have hm : i ∈ seen := by
    rw [hs, mem_addSeen]
    right
    rw [hidx]
    exact List.mem_flatten.2 ⟨_, List.mem_map.2 ⟨l, hl, rfl⟩, hi⟩
  rw [List.getElem?_eq_some_iff]
  exact ⟨List.idxOf_lt_length_iff.2 hm, List.getElem_idxOf _⟩

/-- The points as they are read. -/
def readPts (rnd : ℚ → ℚ) (ms : List Mesh) : List (V3 ℚ) := (allPts ms).map (Off.readPt rnd)

/-- The section with the word that is its name. -/
def named (s : Text × List Text) : Text × List Text := (firstWord s.1, s.2)

/-- What a section means. -/
def secShape (rnd : ℚ → ℚ) (ps : List (V3 ℚ)) (o : Text × List Text) : Text × List (List (Option (V3 ℚ))) :=
  (o.1, o.2.map fun l => (facetIndexes rnd l).map fun i => ps[i]?)

theorem read_kept {rnd : ℚ → ℚ} {ms : List Mesh} (h : ObjReady ms) {p : Text} {secs : List (Text × List Text)}
    (hc : objContent p = (allPts ms).map vLine ++ secs.flatMap secLines) (hs : secs ≠ []) (hno : ∀ s ∈ secs, ∀ l ∈ s.2, l.head? ≠ some 'o') :
    Obj.read rnd p = Out.mapM (readObj rnd (⟨0, 0, 0⟩ :: readPts rnd ms)) (emplaceAll (secs.map named)) := by
  obtain ⟨s0, secs', rfl⟩ := List.exists_cons_of_ne_nil hs
  have hv : vertexLines p = (allPts ms).map vLine := by
    unfold vertexLines
    rw [hc, List.takeWhile_append_of_pos]
    · rw [List.flatMap_cons, secLines, List.cons_append, List.takeWhile_cons]
      simp
    · intro l hl
      obtain ⟨x, -, rfl⟩ := List.mem_map.1 hl
      rfl
  have ho : otherLines p = (s0 :: secs').flatMap secLines := by
    have e : objContent p = vertexLines p ++ otherLines p := (List.takeWhile_append_dropWhile ..).symm
    rw [hc, hv] at e
    exact (List.append_cancel_left e).symm
  rw [read_sections (secs := s0 :: secs') ⟨[], by rw [ho]; rfl, by simp, hno⟩ (by rw [hc]; simp [secLines]), hv]
  have hm : Out.mapM (fun l => Obj.line2pt rnd (List.tail l)) ((allPts ms).map vLine) = .ok (readPts rnd ms) := by
    rw [Out.mapM_eq_ok]
    unfold readPts
    rw [List.forall₂_map_left_iff, List.forall₂_map_right_iff]
    apply List.forall₂_same.2
    intro x hx
    obtain ⟨m, hm, hx⟩ := List.mem_flatMap.1 hx
    exact line2pt_vLine rnd (h.finite m hm x hx)
  rw [hm, Out.ok_bind]
  rfl

theorem mapM_shapes {rnd : ℚ → ℚ} {ps : List (V3 ℚ)} {E : List (Text × List Text)} {rs : List Mesh} (h : Out.mapM (readObj rnd ps) E = .ok rs) :
    rs.map (fun r => (r.name, polygons r)) = E.map (secShape rnd ps) := by
  rw [Out.mapM_eq_ok] at h
  induction h with
  | nil => rfl
  | @cons a b l1 l2 hab _ ih =>
    rw [List.map_cons, List.map_cons, ih]
    congr 1
    obtain ⟨h1, h2⟩ := readObj_polys hab
    unfold secShape
    rw [h1, h2]

theorem emplace_present {α : Type} {x : Text × α} {l : List (Text × α)} (hs : Obj.Sorted l) (h : ∃ y ∈ l, y.1 = x.1) : emplace x l = l := by
  induction l with
  | nil => simp at h
  | cons y l ih =>
    unfold Obj.Sorted at hs
    rw [List.pairwise_cons] at hs
    unfold emplace
    obtain ⟨z, hz, e⟩ := h
    rcases List.mem_cons.1 hz with rfl | hz
    · rw [if_neg (by rw [e]; exact lt_irrefl _), if_pos e.symm]
    · have hlt := hs.1 z hz
      rw [e] at hlt
      rw [if_neg hlt.asymm, if_neg hlt.ne', ih hs.2 ⟨z, hz, e⟩]

theorem emplaceAll_concat {α : Type} (xs : List (Text × α)) (x : Text × α) : emplaceAll (xs ++ [x]) = emplace x (emplaceAll xs) := by
  unfold emplaceAll
  rw [List.foldl_append]
  rfl

theorem firstWord_name {n : Text} (h : NoBlank n) : firstWord (' ' :: n) = n := firstToken_name h

theorem firstWord_prefix {n q : Text} (h : NoBlank n) (hq : q <+: ' ' :: n) : firstWord q <+: n := by
  match q, hq with
  | [], _ => exact List.nil_prefix
  | c :: q, hq =>
    rw [List.cons_prefix_cons] at hq
    obtain ⟨rfl, hq⟩ := hq
    rw [firstWord_name fun c hc => h c (hq.subset hc)]
    exact hq

/-- The indexes of a mesh are those of points in the list of all points. -/
theorem index_points {rnd : ℚ → ℚ} {ms : List Mesh} {m : Mesh} {s : Nat} (hm : (m, s) ∈ offs 0 ms) {i : Nat} (hi : i < m.points.length) :
    ((⟨0, 0, 0⟩ : V3 ℚ) :: readPts rnd ms)[i + s + 1]? = (m.points[i]?).map (Off.readPt rnd) := by
  have := offs_getElem (pre := []) hm i hi
  rw [List.nil_append] at this
  rw [List.getElem?_cons_succ]
  unfold readPts allPts
  rw [List.getElem?_map, Nat.add_comm i s, this]

theorem index_small {ms : List Mesh} (h : ObjReady ms) {m : Mesh} {s : Nat} (hm : (m, s) ∈ offs 0 ms) {i : Nat} (hi : i < m.points.length) :
    i + s + 1 ≤ (allPts ms).length ∧ (allPts ms).length ≤ 2 ^ 53 := by
  refine ⟨?_, h.small⟩
  have := offs_getElem (pre := []) hm i hi
  rw [List.nil_append, List.getElem?_eq_getElem hi, List.getElem?_eq_some_iff] at this
  obtain ⟨h1, -⟩ := this
  unfold allPts
  omega

theorem shape_faces {rnd : ℚ → ℚ} (hr : ∀ n : ℕ, n ≤ 2 ^ 53 → rnd n = n) {ms : List Mesh} (h : ObjReady ms) {m : Mesh} {s : Nat} (hm : (m, s) ∈ offs 0 ms)
    {fs : List Face} (hf : ∀ f ∈ fs, f ∈ m.faces) :
    (fs.map (fLine s)).map (fun l => (facetIndexes rnd l).map fun i => ((⟨0, 0, 0⟩ : V3 ℚ) :: readPts rnd ms)[i]?) =
      (fs.map (polygon m.points)).map (·.map (·.map (Off.readPt rnd))) := by
  rw [List.map_map, List.map_map]
  apply List.map_congr_left
  intro f hff
  have hv := h.valid m (offs_name hm) f (hf f hff)
  simp only [Function.comp]
  rw [facetIndexes_fLine hr fun i hi => (index_small h hm (hv i hi)).1.trans (index_small h hm (hv i hi)).2, List.map_map, polygon, List.map_map]
  apply List.map_congr_left
  intro i hi
  simp only [Function.comp]
  exact index_points hm (hv i hi)

theorem shape_whole {rnd : ℚ → ℚ} (hr : ∀ n : ℕ, n ≤ 2 ^ 53 → rnd n = n) {ms : List Mesh} (h : ObjReady ms) {D : List (Mesh × Nat)} (hD : ∀ d ∈ D, d ∈ offs 0 ms) :
    ((D.map objSec).map named).map (secShape rnd (⟨0, 0, 0⟩ :: readPts rnd ms)) = shapes (Off.readPt rnd) (D.map (·.1)) := by
  unfold shapes
  rw [List.map_map, List.map_map, List.map_map]
  apply List.map_congr_left
  intro d hd
  obtain ⟨m, s⟩ := d
  simp only [Function.comp, secShape, named, objSec]
  rw [firstWord_name (h.names m (offs_name (hD _ hd))), shape_faces hr h (hD _ hd) fun f hf => hf]
  rfl

/-- Lines of indexes, whole or cut, have indexes that exist. -/
theorem cut_indexes {rnd : ℚ → ℚ} (hr : ∀ n : ℕ, n ≤ 2 ^ 53 → rnd n = n) {ms : List Mesh} (h : ObjReady ms) {m : Mesh} {s : Nat} (hm : (m, s) ∈ offs 0 ms)
    {f : Face} (hf : f ∈ m.faces) {q : Text} (hq : q <+: fLine s f) :
    ∃ js : List Nat, scanDecs rnd q.tail = js.map (fun (j : Nat) => (j : ℚ)) ∧ (∀ j ∈ js, 1 ≤ j ∧ j ≤ (allPts ms).length) ∧ js.length ≤ f.points.length ∧
      js.dropLast <+: f.points.map fun i => i + s + 1 := by
  have hv := h.valid m (offs_name hm) f hf
  have hs := fun i hi => index_small h hm (hv i hi)
  match q, hq with
  | [], _ => exact ⟨[], by simp [scanDecs_nil], by simp, by simp, by simp⟩
  | [c], _ => exact ⟨[], by simp [scanDecs_nil], by simp, by simp, by simp⟩
  | c :: d :: q, hq =>
    unfold fLine at hq
    rw [List.cons_prefix_cons, List.cons_prefix_cons] at hq
    obtain ⟨rfl, rfl, hq⟩ := hq
    obtain ⟨js, h1, h2, h4⟩ := scan_fLine_prefix hr (fun i hi => (hs i hi).1.trans (hs i hi).2) hq
    refine ⟨js, by rw [List.tail_cons, scanDecs_space rnd (by decide), h1], ?_, ?_, h4⟩
    rotate_left
    · have := h2.length_eq
      rw [List.length_take] at this
      omega
    intro j hj
    obtain ⟨k, hk, rfl⟩ := List.getElem_of_mem hj
    have hk2 : k < (f.points.take js.length).length := by rw [← h2.length_eq]; exact hk
    have := (List.forall₂_iff_get.1 h2).2 k hk hk2
    simp only [List.get_eq_getElem] at this
    have h3 := hs _ (List.mem_of_mem_take (List.getElem_mem hk2))
    exact ⟨this.1, this.2.trans h3.1⟩

/-- No section of a text that was cut is undefined. -/
theorem last_defined {rnd : ℚ → ℚ} {ms : List Mesh} (h : ObjReady ms) {ls : List Text}
    (hl : ∀ l ∈ ls, ∃ js : List Nat, scanDecs rnd l.tail = js.map (fun (j : Nat) => (j : ℚ)) ∧ ∀ j ∈ js, 1 ≤ j ∧ j ≤ (allPts ms).length) (n : Text) :
    readObj rnd (⟨0, 0, 0⟩ :: readPts rnd ms) (n, ls) ≠ .ub := by
  have hN : (allPts ms).length ≤ 2 ^ 53 := h.small
  have key : ∀ l ∈ ls, ∀ q ∈ scanDecs rnd l.tail, 1 ≤ q ∧ q ≤ ((allPts ms).length : ℚ) ∧ q ≤ 2 ^ 53 := by
    intro l hll q hq
    obtain ⟨js, h1, h2⟩ := hl l hll
    rw [h1] at hq
    obtain ⟨j, hj, rfl⟩ := List.mem_map.1 hq
    obtain ⟨a, b⟩ := h2 j hj
    exact ⟨by exact_mod_cast a, by exact_mod_cast b, by exact_mod_cast b.trans hN⟩
  intro hu
  rw [readObj_cases.1] at hu
  rcases hu with ⟨a, l, b, he, -, q, hq, hc⟩ | ⟨-, l, hll, q, hq, hc⟩
  · simp only at he
    obtain ⟨k1, -, k3⟩ := key l (by rw [he]; simp) q hq
    rcases hc with hc | hc
    · linarith
    · have := hc.trans k3; norm_num at this
  · obtain ⟨-, k2, -⟩ := key l hll q hq
    have e : (readPts rnd ms).length = (allPts ms).length := by simp [readPts]
    rw [e] at hc
    linarith

theorem whole_fine {rnd : ℚ → ℚ} (hr : ∀ n : ℕ, n ≤ 2 ^ 53 → rnd n = n) {ms : List Mesh} (h : ObjReady ms) {m : Mesh} {s : Nat} (hm : (m, s) ∈ offs 0 ms)
    {fs : List Face} (hf : ∀ f ∈ fs, f ∈ m.faces) (n : Text) : ∃ r, readObj rnd (⟨0, 0, 0⟩ :: readPts rnd ms) (n, fs.map (fLine s)) = .ok r := by
  rw [readObj_cases.2]
  intro l hl
  obtain ⟨f, hff, rfl⟩ := List.mem_map.1 hl
  have hv := h.valid m (offs_name hm) f (hf f hff)
  have hs := fun i hi => index_small h hm (hv i hi)
  have e : scanDecs rnd (fLine s f).tail = f.points.map fun i => ((i + s + 1 : ℕ) : ℚ) := by
    unfold fLine
    rw [List.tail_cons, scanDecs_space rnd (by decide), scan_fLine hr fun i hi => (hs i hi).1.trans (hs i hi).2]
  have hN : (allPts ms).length ≤ 2 ^ 53 := h.small
  have key : ∀ q ∈ scanDecs rnd (fLine s f).tail, 1 ≤ q ∧ q ≤ ((allPts ms).length : ℚ) ∧ q ≤ 2 ^ 53 := by
    intro q hq
    rw [e] at hq
    obtain ⟨i, hi, rfl⟩ := List.mem_map.1 hq
    have a := (hs i hi).1
    exact ⟨by exact_mod_cast (by omega : 1 ≤ i + s + 1), by exact_mod_cast a, by exact_mod_cast a.trans hN⟩
  refine ⟨⟨?_, ?_⟩, ?_⟩
  · rw [e, List.length_map]
    exact h.degree m (offs_name hm) f (hf f hff)
  · intro q hq
    obtain ⟨k1, k2, k3⟩ := key q hq
    refine ⟨by linarith, lt_of_le_of_lt k3 (by norm_num)⟩
  · intro q hq
    obtain ⟨k1, k2, k3⟩ := key q hq
    have e : (readPts rnd ms).length = (allPts ms).length := by simp [readPts]
    rw [e]
    linarith

/-- What may be left of the object in whose lines the text ends: a beginning of its name; or its first faces; or its first faces and a last one that has lost
corners at its end and of whose corners the last may be any point of the file. -/
inductive Remains (g : V3 ℚ → V3 ℚ) (ms : List Mesh) (m : Mesh) : Text × List (List (Option (V3 ℚ))) → Prop
  | name (n : Text) : n <+: m.name → Remains g ms m (n, [])
  | faces (fs gs : List (List (Option (V3 ℚ)))) : (polygons m).map (·.map (·.map g)) = fs ++ gs → Remains g ms m (m.name, fs)
  | part (fs gs : List (List (Option (V3 ℚ)))) (f f' : List (Option (V3 ℚ))) : (polygons m).map (·.map (·.map g)) = fs ++ f :: gs → f'.dropLast <+: f →
    3 ≤ f'.length → f'.length ≤ f.length → (∀ o ∈ f', ∃ a ∈ ms, ∃ x ∈ a.points, o = some (g x)) → Remains g ms m (m.name, fs ++ [f'])

theorem read_vertices {rnd : ℚ → ℚ} {ms : List Mesh} (h : ObjReady ms) {p : Text} {ps : List (V3 ℚ)} {q : List Text} (hc : objContent p = ps.map vLine ++ q)
    (hps : ∀ x ∈ ps, ∃ m ∈ ms, x ∈ m.points) (hq : q = [] ∨ ∃ x l, (∃ m ∈ ms, x ∈ m.points) ∧ q = [l] ∧ l ≠ [] ∧ l <+: vLine x) :
    (objContent p = [] ∧ Obj.read rnd p = .thrown .outOfRange) ∨ Obj.read rnd p = .ok [] ∨ q ≠ [] ∧ ∃ e, Obj.read rnd p = .thrown e := by
  by_cases h0 : objContent p = []
  · left
    refine ⟨h0, ?_⟩
    unfold Obj.read
    exact if_pos h0
  right
  have hall : ∀ l ∈ objContent p, (l.head? == some 'v') = true := by
    intro l hl
    rw [hc] at hl
    rcases List.mem_append.1 hl with hl | hl
    · obtain ⟨x, -, rfl⟩ := List.mem_map.1 hl
      rfl
    · rcases hq with rfl | ⟨x, l', -, rfl, h1, h2⟩
      · simp at hl
      · simp at hl
        subst hl
        match l, h1, h2 with
        | c :: l, _, h2 =>
          unfold vLine at h2
          rw [List.cons_prefix_cons] at h2
          obtain ⟨rfl, -⟩ := h2
          rfl
  have hv : vertexLines p = objContent p := List.takeWhile_eq_self_iff.2 hall
  have ho : otherLines p = [] := List.dropWhile_eq_nil_iff.2 hall
  rw [read_sections (secs := []) ⟨[], by rw [ho]; rfl, by simp, by simp⟩ h0, hv]
  have hok : Out.mapM (fun l => Obj.line2pt rnd (List.tail l)) (ps.map vLine) = .ok (ps.map (Off.readPt rnd)) := by
    rw [Out.mapM_eq_ok, List.forall₂_map_left_iff, List.forall₂_map_right_iff]
    apply List.forall₂_same.2
    intro x hx
    obtain ⟨m, hm, hx⟩ := hps x hx
    exact line2pt_vLine rnd (h.finite m hm x hx)
  have hne : Out.mapM (fun l => Obj.line2pt rnd (List.tail l)) (objContent p) ≠ .ub := by
    apply mapM_ne_ub
    intro l hl
    rw [hc] at hl
    rcases List.mem_append.1 hl with hl | hl
    · obtain ⟨x, hx, rfl⟩ := List.mem_map.1 hl
      obtain ⟨m, hm, hx⟩ := hps x hx
      rw [line2pt_vLine rnd (h.finite m hm x hx)]
      simp
    · rcases hq with rfl | ⟨x, l', ⟨m, hm, hx⟩, rfl, h1, h2⟩
      · simp at hl
      · simp at hl
        subst hl
        have h3 : (scanDecs rnd l.tail).length ≤ 3 := by
          match l, h1, h2 with
          | [c], _, _ => simp [scanDecs_nil]
          | c :: d :: l, _, h2 =>
            unfold vLine at h2
            rw [List.cons_prefix_cons, List.cons_prefix_cons] at h2
            obtain ⟨rfl, rfl, h2⟩ := h2
            rw [List.tail_cons, scanDecs_space rnd (by decide)]
            exact scanDecs_point_prefix rnd (h.finite m hm x hx) h2
        unfold line2pt
        generalize scanDecs rnd l.tail = qs at h3
        match qs, h3 with
        | [], _ => simp [str2pt]
        | [_], _ => simp [str2pt]
        | [_, _], _ => simp [str2pt]
        | [_, _, _], _ => simp [str2pt]
  cases hm : Out.mapM (fun l => Obj.line2pt rnd (List.tail l)) (objContent p) with
  | ub => exact absurd hm hne
  | ok vs => left; rw [Out.ok_bind]; rfl
  | thrown e =>
    right
    refine ⟨?_, e, rfl⟩
    rintro rfl
    rw [hc, List.append_nil, hok] at hm
    cases hm

/-- The lines of the last section. -/
theorem last_lines {rnd : ℚ → ℚ} (hr : ∀ n : ℕ, n ≤ 2 ^ 53 → rnd n = n) {whole : Prop} {ms rest : List Mesh} {last : List (Text × List Text)} (h : ObjReady ms)
    (hl : LastSec whole ms rest last) :
    ∀ s ∈ last, ∀ l ∈ s.2, l.head? ≠ some 'o' ∧
      ∃ js : List Nat, scanDecs rnd l.tail = js.map (fun (j : Nat) => (j : ℚ)) ∧ ∀ j ∈ js, 1 ≤ j ∧ j ≤ (allPts ms).length := by
  have hf : ∀ (m : Mesh) (s : Nat), (m, s) ∈ offs 0 ms → ∀ f ∈ m.faces, (fLine s f).head? ≠ some 'o' ∧
      ∃ js : List Nat, scanDecs rnd (fLine s f).tail = js.map (fun (j : Nat) => (j : ℚ)) ∧ ∀ j ∈ js, 1 ≤ j ∧ j ≤ (allPts ms).length := by
    intro m s hm f hf
    obtain ⟨js, h1, h2, -⟩ := cut_indexes hr h hm hf (List.prefix_refl _)
    exact ⟨by simp [fLine], js, h1, h2⟩
  intro sec hs l hll
  cases hl with
  | none => simp at hs
  | name m rest n hn hw => simp at hs; subst hs; simp at hll
  | faces m s rest fs gs hm hfs =>
    simp at hs
    subst hs
    obtain ⟨f, hff, rfl⟩ := List.mem_map.1 hll
    exact hf m s hm f (by rw [hfs]; simp [hff])
  | part m s rest fs gs f q hm hfs hq h0 hw =>
    simp at hs
    subst hs
    rcases List.mem_append.1 hll with hll | hll
    · obtain ⟨f, hff, rfl⟩ := List.mem_map.1 hll
      exact hf m s hm f (by rw [hfs]; simp [hff])
    · simp at hll
      subst hll
      obtain ⟨js, h1, h2, -⟩ := cut_indexes hr h hm (f := f) (by rw [hfs]; simp) hq
      refine ⟨?_, js, h1, h2⟩
      match l, h0, hq with
      | c :: l, _, hq =>
        unfold fLine at hq
        rw [List.cons_prefix_cons] at hq
        obtain ⟨rfl, -⟩ := hq
        simp

theorem names_whole {ms : List Mesh} (h : ObjReady ms) {D : List (Mesh × Nat)} (hD : ∀ d ∈ D, d ∈ offs 0 ms) :
    ((D.map objSec).map named).map (·.1) = (D.map (·.1)).map (·.name) := by
  rw [List.map_map, List.map_map, List.map_map]
  apply List.map_congr_left
  intro d hd
  exact firstWord_name (h.names d.1 (offs_name (hD d hd)))

/-- The sections that are left, read. -/
theorem read_left {rnd : ℚ → ℚ} (hr : ∀ n : ℕ, n ≤ 2 ^ 53 → rnd n = n) {whole : Prop} {ms rest : List Mesh} {last : List (Text × List Text)} (h : ObjReady ms)
    {D : List (Mesh × Nat)} (hD : ∀ d ∈ D, d ∈ offs 0 ms) (hl : LastSec whole ms rest last) {p : Text}
    (hc : objContent p = (allPts ms).map vLine ++ (D.map objSec ++ last).flatMap secLines) (hs : D.map objSec ++ last ≠ []) :
    Obj.read rnd p = Out.mapM (readObj rnd (⟨0, 0, 0⟩ :: readPts rnd ms)) (emplaceAll ((D.map objSec).map named ++ last.map named)) ∧
      Obj.read rnd p ≠ .ub := by
  have hlines : ∀ s ∈ D.map objSec ++ last, ∀ l ∈ s.2, l.head? ≠ some 'o' ∧
      ∃ js : List Nat, scanDecs rnd l.tail = js.map (fun (j : Nat) => (j : ℚ)) ∧ ∀ j ∈ js, 1 ≤ j ∧ j ≤ (allPts ms).length := by
    intro s hs
    rcases List.mem_append.1 hs with hs | hs
    · obtain ⟨⟨m, k⟩, hd, rfl⟩ := List.mem_map.1 hs
      have := last_lines hr h (.faces (whole := whole) m k [] m.faces [] (hD _ hd) (by simp))
      exact this (objSec (m, k)) (by simp [objSec])
    · exact last_lines hr h hl s hs
  have e := read_kept (rnd := rnd) h hc hs fun s hs l hll => (hlines s hs l hll).1
  rw [List.map_append] at e
  refine ⟨e, ?_⟩
  rw [e]
  apply mapM_ne_ub
  intro x hx
  have := mem_emplaceAll hx
  rw [← List.map_append] at this
  obtain ⟨s, hs, rfl⟩ := List.mem_map.1 this
  exact last_defined h (fun l hll => (hlines s hs l hll).2) _

theorem forall₂_left {α β : Type} {R : α → β → Prop} {l : List α} {k : List β} (h : List.Forall₂ R l k) {a : α} (ha : a ∈ l) : ∃ b, R a b := by
  induction h with
  | nil => simp at ha
  | @cons x y l k hxy _ ih =>
    rcases List.mem_cons.1 ha with rfl | ha
    exacts [⟨y, hxy⟩, ih ha]

/-- C95: wherever the text is cut, the reader throws, or returns the objects that are complete and at most one more, of which a part is left; reading is never
undefined.
Missing from the full property: this is not all that was written, and nothing tells. -/
theorem C95_cut_partial (rnd : ℚ → ℚ) (hr : ∀ n : ℕ, n ≤ 2 ^ 53 → rnd n = n) (ms : List Mesh) (h : ObjReady ms) (hd : (ms.map (·.name)).Nodup) (t : Text)
    (hw : Obj.write ms = .ok t) (p : Text) (hp : p <+: t) :
    (∃ e, Obj.read rnd p = .thrown e) ∨
      ∃ rs g done rest cut, Obj.read rnd p = .ok rs ∧ ms = done ++ rest ∧ (∀ m ∈ ms, ∀ x ∈ m.points, ReadBack rnd x (g x)) ∧
        (rs.map fun r => (r.name, polygons r)).Perm (shapes g done ++ cut) ∧ (cut = [] ∨ ∃ m c, rest.head? = some m ∧ cut = [c] ∧ Remains g ms m c) := by
  have hn : ∀ m ∈ ms, '\n' ∉ m.name := by
    intro m hm hc
    have := h.names m hm _ hc
    revert this; decide
  have ht : t = unlines (writeLines ms) := by
    unfold Obj.write at hw
    split at hw
    · cases hw
    · cases hw; rfl
  have hg : ∀ m ∈ ms, ∀ x ∈ m.points, ReadBack rnd x (Off.readPt rnd x) := fun m hm x hx => readBack_readPt rnd (h.finite m hm x hx)
  have hnil : Obj.read rnd p = .ok [] → ∃ rs g done rest cut, Obj.read rnd p = .ok rs ∧ ms = done ++ rest ∧ (∀ m ∈ ms, ∀ x ∈ m.points, ReadBack rnd x (g x)) ∧
        (rs.map fun r => (r.name, polygons r)).Perm (shapes g done ++ cut) ∧ (cut = [] ∨ ∃ m c, rest.head? = some m ∧ cut = [c] ∧ Remains g ms m c) :=
    fun e => ⟨[], _, [], ms, [], e, rfl, hg, by simp [shapes], .inl rfl⟩
  rcases cut_cases hn (by rwa [← ht] : p <+: unlines (writeLines ms)) with ⟨ps, q, hc, hps, hq, -⟩ | ⟨D, rest, last, hms, hD, hc, hl⟩
  · rcases read_vertices (rnd := rnd) h hc hps hq with ⟨-, e⟩ | e | ⟨-, e⟩
    · exact .inl ⟨_, e⟩
    · exact .inr (hnil e)
    · exact .inl e
  · by_cases hs : D.map objSec ++ last = []
    · rw [hs] at hc
      rcases read_vertices (rnd := rnd) h (ps := allPts ms) (q := []) (by simpa using hc) (fun x hx => List.mem_flatMap.1 hx) (.inl rfl) with ⟨-, e⟩ | e | ⟨-, e⟩
      · exact .inl ⟨_, e⟩
      · exact .inr (hnil e)
      · exact .inl e
    obtain ⟨hread, hub⟩ := read_left hr h hD hl hc hs
    cases hres : Obj.read rnd p with
    | ub => exact absurd hres hub
    | thrown e => exact .inl ⟨e, rfl⟩
    | ok rs =>
      right
      have hshape := mapM_shapes (hread.symm.trans hres)
      have hN := names_whole h hD
      have hW := shape_whole hr h hD
      have hnd : ((D.map (·.1)).map (·.name)).Nodup := by
        rw [hms, List.map_append] at hd
        exact hd.of_append_left
      -- the last section has a new name
      have fresh : ∀ (c : Text × List Text), last.map named = [c] → c.1 ∉ (D.map (·.1)).map (·.name) →
          (rs.map fun r => (r.name, polygons r)).Perm (shapes (Off.readPt rnd) (D.map (·.1)) ++ [secShape rnd (⟨0, 0, 0⟩ :: readPts rnd ms) c]) := by
        intro c hc hnot
        rw [hshape, hc]
        refine ((perm_emplaceAll ?_).map _).trans ?_
        · rw [List.map_append, hN, List.map_singleton]
          rw [List.nodup_append]
          refine ⟨hnd, by simp, ?_⟩
          intro a ha b hb
          simp at hb
          subst hb
          rintro rfl
          exact hnot ha
        · rw [List.map_append, hW]
          exact List.Perm.refl _
      cases hl with
      | none rest =>
        refine ⟨rs, _, _, _, [], rfl, hms, hg, ?_, .inl rfl⟩
        rw [hshape, List.map_nil, List.append_nil, List.append_nil, ← hW]
        exact (perm_emplaceAll (by rw [hN]; exact hnd)).map _
      | name m rest n hnn _ =>
        by_cases hin : firstWord n ∈ (D.map (·.1)).map (·.name)
        · refine ⟨rs, _, _, _, [], rfl, hms, hg, ?_, .inl rfl⟩
          rw [hshape, List.map_singleton, emplaceAll_concat, emplace_present (sorted_emplaceAll _), List.append_nil, ← hW]
          · exact (perm_emplaceAll (by rw [hN]; exact hnd)).map _
          · rw [← hN] at hin
            obtain ⟨y, hy, e⟩ := List.mem_map.1 hin
            exact ⟨y, (perm_emplaceAll (by rw [hN]; exact hnd)).mem_iff.2 hy, e⟩
        · exact ⟨rs, _, _, _, _, rfl, hms, hg, fresh _ rfl hin, .inr ⟨m, _, rfl, rfl, .name _ (firstWord_prefix (h.names m (by rw [hms]; simp)) hnn)⟩⟩
      | faces m s rest fs gs hm hfs =>
        have hnb := h.names m (offs_name hm)
        have hnew : firstWord (' ' :: m.name) ∉ (D.map (·.1)).map (·.name) := by
          rw [firstWord_name hnb]
          rw [hms, List.map_append, List.map_cons, List.nodup_append] at hd
          intro hc
          exact hd.2.2 _ hc _ (by simp) rfl
        refine ⟨rs, _, _, _, _, rfl, hms, hg, fresh _ rfl hnew, .inr ⟨m, _, rfl, rfl, ?_⟩⟩
        have e := shape_faces hr h hm (fs := fs) fun f hf => by rw [hfs]; simp [hf]
        simp only [secShape, named, firstWord_name hnb]
        rw [e]
        apply Remains.faces _ ((gs.map (polygon m.points)).map (·.map (·.map (Off.readPt rnd))))
        rw [polygons, hfs, List.map_append, List.map_append]
      | part m s rest fs gs f q hm hfs hq h0 _ =>
        have hnb := h.names m (offs_name hm)
        have hff : f ∈ m.faces := by rw [hfs]; simp
        have hnew : firstWord (' ' :: m.name) ∉ (D.map (·.1)).map (·.name) := by
          rw [firstWord_name hnb]
          rw [hms, List.map_append, List.map_cons, List.nodup_append] at hd
          intro hc
          exact hd.2.2 _ hc _ (by simp) rfl
        obtain ⟨js, j1, j2, j3, j4⟩ := cut_indexes hr h hm hff hq
        have hidx : facetIndexes rnd q = js := by
          unfold facetIndexes
          rw [j1, List.map_map]
          conv_rhs => rw [← List.map_id js]
          apply List.map_congr_left
          intro j _
          exact Nat.floor_natCast _
        have hfine : 3 ≤ js.length := by
          have hm2 := Out.mapM_eq_ok.1 (hread.symm.trans hres)
          have hin : (firstWord (' ' :: m.name), fs.map (fLine s) ++ [q]) ∈ emplaceAll ((D.map objSec).map named ++ [(' ' :: m.name, fs.map (fLine s) ++ [q])].map named) := by
            refine (perm_emplaceAll ?_).mem_iff.2 (by simp [named])
            rw [List.map_append, hN, List.map_singleton, List.map_singleton, List.nodup_append]
            refine ⟨hnd, by simp, ?_⟩
            intro a ha b hb
            simp at hb
            subst hb
            rintro rfl
            exact hnew ha
          obtain ⟨r, hro⟩ := forall₂_left hm2 hin
          have := (readObj_cases.2.1 ⟨r, hro⟩ q (by simp)).1.1
          rw [j1] at this
          simpa using this
        refine ⟨rs, _, _, _, _, rfl, hms, hg, fresh _ rfl hnew, .inr ⟨m, _, rfl, rfl, ?_⟩⟩
        have e := shape_faces hr h hm (fs := fs) fun f hf => by rw [hfs]; simp [hf]
        simp only [secShape, named, firstWord_name hnb, List.map_append, List.map_singleton, hidx]
        rw [e]
        have hv := h.valid m (offs_name hm) f hff
        refine .part _ ((gs.map (polygon m.points)).map (·.map (·.map (Off.readPt rnd)))) ((polygon m.points f).map (·.map (Off.readPt rnd))) _ ?_ ?_ ?_ ?_ ?_
        · rw [polygons, hfs, List.map_append, List.map_append, List.map_cons, List.map_cons]
        · have e2 : (polygon m.points f).map (·.map (Off.readPt rnd)) = (f.points.map fun i => i + s + 1).map fun i => ((⟨0, 0, 0⟩ : V3 ℚ) :: readPts rnd ms)[i]? := by
            rw [polygon, List.map_map, List.map_map]
            apply List.map_congr_left
            intro i hi
            exact (index_points hm (hv i hi)).symm
          rw [e2, ← List.map_dropLast]
          exact j4.map _
        · simpa using hfine
        · simpa [polygon] using j3
        · intro o ho
          obtain ⟨j, hj, rfl⟩ := List.mem_map.1 ho
          obtain ⟨k1, k2⟩ := j2 j hj
          obtain ⟨i, rfl⟩ : ∃ i, j = i + 1 := ⟨j - 1, by omega⟩
          rw [List.getElem?_cons_succ]
          unfold readPts
          rw [List.getElem?_map, List.getElem?_eq_getElem (by omega)]
          obtain ⟨a, ha, hx⟩ := List.mem_flatMap.1 (List.getElem_mem (l := allPts ms) (n := i) (by omega))
          exact ⟨a, ha, _, hx, rfl⟩

/-- Whole sections, and the first faces of one more, are read. -/
theorem read_beginning {rnd : ℚ → ℚ} (hr : ∀ n : ℕ, n ≤ 2 ^ 53 → rnd n = n) {ms : List Mesh} (h : ObjReady ms) (hd : (ms.map (·.name)).Nodup)
    {D : List (Mesh × Nat)} {m : Mesh} {s : Nat} {rest : List Mesh} {fs gs : List Face} (hms : ms = D.map (·.1) ++ m :: rest) (hD : ∀ d ∈ D, d ∈ offs 0 ms)
    (hm : (m, s) ∈ offs 0 ms) (hfs : m.faces = fs ++ gs) {p : Text}
    (hc : objContent p = (allPts ms).map vLine ++ (D.map objSec ++ [(' ' :: m.name, fs.map (fLine s))]).flatMap secLines) :
    ∃ rs, Obj.read rnd p = .ok rs ∧ (rs.map fun r => (r.name, polygons r)).Perm
      (shapes (Off.readPt rnd) (D.map (·.1)) ++ [(m.name, (fs.map (polygon m.points)).map (·.map (·.map (Off.readPt rnd))))]) := by
  have hl : LastSec False ms (m :: rest) [(' ' :: m.name, fs.map (fLine s))] := .faces m s rest fs gs hm hfs
  obtain ⟨hread, -⟩ := read_left hr h hD hl hc (by simp)
  have hnb := h.names m (offs_name hm)
  have hff : ∀ f ∈ fs, f ∈ m.faces := fun f hf => by rw [hfs]; simp [hf]
  have hN := names_whole h hD
  have hall : ∀ x ∈ emplaceAll ((D.map objSec).map named ++ [(' ' :: m.name, fs.map (fLine s))].map named),
      ∃ r, readObj rnd (⟨0, 0, 0⟩ :: readPts rnd ms) x = .ok r := by
    intro x hx
    rcases List.mem_append.1 (mem_emplaceAll hx) with hx | hx
    · obtain ⟨y, hy, rfl⟩ := List.mem_map.1 hx
      obtain ⟨d, hd, rfl⟩ := List.mem_map.1 hy
      exact whole_fine hr h (hD d hd) (fun f hf => hf) _
    · simp at hx
      subst hx
      exact whole_fine hr h hm hff _
  obtain ⟨rs, hrs⟩ : ∃ rs, Out.mapM (readObj rnd (⟨0, 0, 0⟩ :: readPts rnd ms)) (emplaceAll ((D.map objSec).map named ++
      [(' ' :: m.name, fs.map (fLine s))].map named)) = .ok rs := by
    generalize emplaceAll ((D.map objSec).map named ++ [(' ' :: m.name, fs.map (fLine s))].map named) = E at hall
    clear hread
    induction E with
    | nil => exact ⟨[], rfl⟩
    | cons x E ih =>
      obtain ⟨r, hr⟩ := hall x (by simp)
      obtain ⟨rs, hrs⟩ := ih fun y hy => hall y (by simp [hy])
      exact ⟨r :: rs, by rw [Out.mapM_cons, hr, Out.ok_bind, hrs]; rfl⟩
  refine ⟨rs, hread.trans hrs, ?_⟩
  rw [mapM_shapes hrs]
  refine ((perm_emplaceAll ?_).map _).trans ?_
  · rw [hms, List.map_append, List.map_cons, List.nodup_append] at hd
    rw [List.map_append, hN, List.map_singleton, List.map_singleton, List.nodup_append]
    refine ⟨hd.1, by simp, ?_⟩
    intro a ha b hb
    simp [named, firstWord_name hnb] at hb
    subst hb
    exact hd.2.2 a ha _ (by simp)
  · rw [List.map_append, shape_whole hr h hD]
    simp only [List.map_singleton, secShape, named, firstWord_name hnb]
    rw [shape_faces hr h hm hff]

theorem moved_split {g : V3 ℚ → V3 ℚ} {m : Mesh} {fs gs : List Face} (h : m.faces = fs ++ gs) :
    (polygons m).map (·.map (·.map g)) = (fs.map (polygon m.points)).map (·.map (·.map g)) ++ (gs.map (polygon m.points)).map (·.map (·.map g)) := by
  rw [polygons, h, List.map_append, List.map_append]

/-- C95: if the text consists of the first lines of the file, the reader returns the objects and faces whose lines are there, without an exception (it throws if
there is no line at all). A vertex that is lost makes no difference as long as no face is there.
Missing from the full property: what is returned is not what was written. -/
theorem C95_lines_partial (rnd : ℚ → ℚ) (hr : ∀ n : ℕ, n ≤ 2 ^ 53 → rnd n = n) (ms : List Mesh) (h : ObjReady ms) (hd : (ms.map (·.name)).Nodup) (t : Text)
    (hw : Obj.write ms = .ok t) (p : Text) (hp : p <+: t) (hl : WholeLines p) :
    (objContent p = [] ∧ Obj.read rnd p = .thrown .outOfRange) ∨
      ∃ rs g kept, Obj.read rnd p = .ok rs ∧ (∀ m ∈ ms, ∀ x ∈ m.points, ReadBack rnd x (g x)) ∧ Beginning (shapes g ms) kept ∧
        (rs.map fun r => (r.name, polygons r)).Perm kept := by
  have hn : ∀ m ∈ ms, '\n' ∉ m.name := by
    intro m hm hc
    have := h.names m hm _ hc
    revert this; decide
  have ht : t = unlines (writeLines ms) := by
    unfold Obj.write at hw
    split at hw
    · cases hw
    · cases hw; rfl
  have hg : ∀ m ∈ ms, ∀ x ∈ m.points, ReadBack rnd x (Off.readPt rnd x) := fun m hm x hx => readBack_readPt rnd (h.finite m hm x hx)
  have hnil : ∀ {ps : List (V3 ℚ)}, objContent p = ps.map vLine → (∀ x ∈ ps, ∃ m ∈ ms, x ∈ m.points) →
      (objContent p = [] ∧ Obj.read rnd p = .thrown .outOfRange) ∨
      ∃ rs g kept, Obj.read rnd p = .ok rs ∧ (∀ m ∈ ms, ∀ x ∈ m.points, ReadBack rnd x (g x)) ∧ Beginning (shapes g ms) kept ∧
        (rs.map fun r => (r.name, polygons r)).Perm kept := by
    intro ps hc hps
    rcases read_vertices (rnd := rnd) h (q := []) (by simpa using hc) hps (.inl rfl) with e | e | ⟨e, -⟩
    · exact .inl e
    · exact .inr ⟨[], _, [], e, hg, .inl rfl, by simp⟩
    · exact absurd rfl e
  have hsec : ∀ (D : List (Mesh × Nat)) (m : Mesh) (s : Nat) (rest : List Mesh) (fs gs : List Face), ms = D.map (·.1) ++ m :: rest → (∀ d ∈ D, d ∈ offs 0 ms) →
      (m, s) ∈ offs 0 ms → m.faces = fs ++ gs →
      objContent p = (allPts ms).map vLine ++ (D.map objSec ++ [(' ' :: m.name, fs.map (fLine s))]).flatMap secLines →
      ∃ rs g kept, Obj.read rnd p = .ok rs ∧ (∀ m ∈ ms, ∀ x ∈ m.points, ReadBack rnd x (g x)) ∧ Beginning (shapes g ms) kept ∧
        (rs.map fun r => (r.name, polygons r)).Perm kept := by
    intro D m s rest fs gs hms hD hm hfs hc
    obtain ⟨rs, h1, h2⟩ := read_beginning hr h hd hms hD hm hfs hc
    refine ⟨rs, _, _, h1, hg, .inr ⟨_, m.name, _, (gs.map (polygon m.points)).map (·.map (·.map (Off.readPt rnd))), shapes (Off.readPt rnd) rest, ?_, rfl⟩, h2⟩
    rw [← moved_split hfs]
    conv_lhs => rw [hms]
    simp [shapes]
  rcases cut_cases hn (by rwa [← ht] : p <+: unlines (writeLines ms)) with ⟨ps, q, hc, hps, hq, hq0⟩ | ⟨D, rest, last, hms, hD, hc, hlast⟩
  · rw [hq0 hl, List.append_nil] at hc
    exact hnil hc hps
  · cases hlast with
    | none rest =>
      rcases List.eq_nil_or_concat D with rfl | ⟨D', ⟨m, s⟩, rfl⟩
      · exact hnil (ps := allPts ms) (by simpa using hc) fun x hx => List.mem_flatMap.1 hx
      · right
        refine hsec D' m s rest m.faces [] (by simpa using hms) (fun d hd => hD d (by simp [hd])) (hD _ (by simp)) (by simp) ?_
        simpa [objSec] using hc
    | name m rest n hnn hw => exact absurd hl hw
    | faces m s rest fs gs hm hfs => exact .inr (hsec D m s rest fs gs hms hD hm hfs hc)
    | part m s rest fs gs f q hm hfs hq h0 hw => exact absurd hl hw

theorem offs_append (a : Nat) (xs ys : List Mesh) : offs a (xs ++ ys) = offs a xs ++ offs (a + (allPts xs).length) ys := by
  induction xs generalizing a with
  | nil => simp [offs, allPts]
  | cons x xs ih =>
    rw [List.cons_append, offs, offs, ih, List.cons_append]
    congr 3
    simp [allPts]
    omega

/-- C95: every beginning that has an object is the result of some cut: whatever faces and objects are at the end of the file can be lost without being noticed. -/
theorem C95_lost (rnd : ℚ → ℚ) (hr : ∀ n : ℕ, n ≤ 2 ^ 53 → rnd n = n) (ms : List Mesh) (h : ObjReady ms) (hd : (ms.map (·.name)).Nodup) (t : Text)
    (hw : Obj.write ms = .ok t) :
    ∃ g, (∀ m ∈ ms, ∀ x ∈ m.points, ReadBack rnd x (g x)) ∧ ∀ kept, Beginning (shapes g ms) kept → kept ≠ [] →
      ∃ p rs, p <+: t ∧ WholeLines p ∧ Obj.read rnd p = .ok rs ∧ (rs.map fun r => (r.name, polygons r)).Perm kept := by
  have hn : ∀ m ∈ ms, '\n' ∉ m.name := by
    intro m hm hc
    have := h.names m hm _ hc
    revert this; decide
  have ht : t = unlines (writeLines ms) := by
    unfold Obj.write at hw
    split at hw
    · cases hw
    · cases hw; rfl
  refine ⟨Off.readPt rnd, fun m hm x hx => readBack_readPt rnd (h.finite m hm x hx), ?_⟩
  rintro kept (rfl | ⟨done, n, fs, gs, rest, he, rfl⟩) hk
  · exact absurd rfl hk
  unfold shapes at he
  obtain ⟨done', r', rfl, rfl, he2⟩ := List.map_eq_append_iff.1 he
  obtain ⟨m, rest', rfl, he3, rfl⟩ := List.map_eq_cons_iff.1 he2
  rw [Prod.mk.injEq] at he3
  obtain ⟨rfl, he4⟩ := he3
  unfold polygons at he4
  rw [List.map_map] at he4
  obtain ⟨fs', gs', hfs, rfl, rfl⟩ := List.map_eq_append_iff.1 he4
  have ho : offs 0 (done' ++ m :: rest') = offs 0 done' ++ (m, (allPts done').length) :: offs ((allPts done').length + m.points.length) rest' := by
    rw [offs_append, offs, Nat.zero_add]
  have hlines : writeLines (done' ++ m :: rest') = ((allPts (done' ++ m :: rest')).map vLine ++ ((offs 0 done').flatMap (fun p => objLines p.1 p.2) ++
      ([] :: ('o' :: ' ' :: m.name) :: fs'.map (fLine (allPts done').length)))) ++
      (gs'.map (fLine (allPts done').length) ++ (offs ((allPts done').length + m.points.length) rest').flatMap fun p => objLines p.1 p.2) := by
    rw [lines_of_write, ho, List.flatMap_append, List.flatMap_cons, objLines, hfs, List.map_append]
    simp [List.append_assoc]
  have hok := write_ok_lines hn
  rw [hlines] at hok
  refine ⟨unlines ((allPts (done' ++ m :: rest')).map vLine ++ ((offs 0 done').flatMap (fun p => objLines p.1 p.2) ++
      ([] :: ('o' :: ' ' :: m.name) :: fs'.map (fLine (allPts done').length)))), ?_⟩
  have hD : ∀ d ∈ offs 0 done', d ∈ offs 0 (done' ++ m :: rest') := fun d hd => by rw [ho]; simp [hd]
  obtain ⟨rs, h1, h2⟩ := read_beginning hr h hd (D := offs 0 done') (m := m) (s := (allPts done').length) (rest := rest') (fs := fs') (gs := gs')
    (by rw [offs_fst]) hD (by rw [ho]; simp) hfs (p := unlines ((allPts (done' ++ m :: rest')).map vLine ++ ((offs 0 done').flatMap (fun p => objLines p.1 p.2) ++
      ([] :: ('o' :: ' ' :: m.name) :: fs'.map (fLine (allPts done').length))))) (by
      show (readlines _).filter keepLine = _
      rw [readlines_unlines fun l hl => hok l (List.mem_append_left _ hl), List.filter_append, filter_vLines, List.filter_append, filter_blocks, List.flatMap_append]
      have := filter_fLines (allPts done').length fs'
      congr 2
      simp only [List.filter_cons, keepLine] at this ⊢
      simp only [this]
      simp [secLines])
  refine ⟨rs, ?_, ?_, h1, ?_⟩
  · rw [ht, hlines]
    generalize List.map vLine _ ++ (_ ++ _ :: _ :: _) = A
    rw [unlines_append]
    exact List.prefix_append _ _
  · right
    rw [show ∀ (a b : List Text) (x y : Text), a ++ (b ++ x :: y :: fs'.map (fLine (allPts done').length)) = (a ++ b ++ [x]) ++ (y :: fs'.map (fLine (allPts done').length)) by simp]
    generalize (allPts (done' ++ m :: rest')).map vLine ++ (offs 0 done').flatMap (fun p => objLines p.1 p.2) ++ [[]] = A
    obtain ⟨B, l, hB⟩ : ∃ B l, ('o' :: ' ' :: m.name) :: fs'.map (fLine (allPts done').length) = B ++ [l] := by
      rcases List.eq_nil_or_concat (('o' :: ' ' :: m.name) :: fs'.map (fLine (allPts done').length)) with e | ⟨B, l, e⟩
      · cases e
      · exact ⟨B, l, by simpa using e⟩
    refine ⟨unlines (A ++ B) ++ l, ?_⟩
    rw [hB, ← List.append_assoc, unlines_append, unlines_cons]
    simp [unlines]
  · rw [offs_fst] at h2
    rw [List.map_map] at h2
    exact h2

/-- C95 (full statement, false of the code): whatever beginning of the text is found, the reader throws or returns the meshes of the whole text. -/
def C95_full : Prop :=
  ∀ (rnd : ℚ → ℚ), (∀ n : ℕ, n ≤ 2 ^ 53 → rnd n = n) → ∀ ms : List Mesh, ObjReady ms → (ms.map (·.name)).Nodup → ∀ t, Obj.write ms = .ok t → ∀ p, p <+: t →
    (∃ e, Obj.read rnd p = .thrown e) ∨ Obj.read rnd p = Obj.read rnd t

/-- C95 refuted: of two objects the second is lost. -/
theorem C95_refuted : ¬ C95_full := by
  intro hC
  obtain ⟨h1, h2, h3, -⟩ := sampleObj_ready
  obtain ⟨t, rs, g, hw, hrd, -, -, -, hp⟩ := C23_round_trip id (fun _ _ => rfl) sampleObj h3 h1 h2
  obtain ⟨g', -, hl⟩ := C95_lost id (fun _ _ => rfl) sampleObj h1 h2 t hw
  obtain ⟨p, rs', hpt, -, hr', hp'⟩ := hl (shapes g' (sampleObj.take 1)) (.inr ⟨[], ['r', 'o', 'o', 'f'], _, [], shapes g' (sampleObj.drop 1), by
    rw [List.append_nil]; rfl, rfl⟩) (by simp [shapes, sampleObj])
  rcases hC id (fun _ _ => rfl) sampleObj h1 h2 t hw p hpt with ⟨e, he⟩ | he
  · rw [hr'] at he; cases he
  · rw [hr', hrd] at he
    cases he
    have := (hp.symm.trans hp').length_eq
    simp [sampleObj, shapes] at this

/-- The hypotheses of C95 are met: two objects, and a beginning of their text that consists of whole lines. -/
example : ObjReady sampleObj ∧ (sampleObj.map (·.name)).Nodup ∧ ∃ t, Obj.write sampleObj = .ok t ∧ ∃ p, p <+: t ∧ WholeLines p ∧ p ≠ [] ∧ p ≠ t := by
  refine ⟨sampleObj_ready.1, sampleObj_ready.2.1, unlines (writeLines sampleObj), by simp [Obj.write, sampleObj, unlines], unlines ((writeLines sampleObj).take 9), ?_, ?_, ?_, ?_⟩
  · conv_rhs => rw [← List.take_append_drop 9 (writeLines sampleObj), unlines_append]
    exact List.prefix_append _ _
  · right
    obtain ⟨B, l, hB⟩ : ∃ B l, (writeLines sampleObj).take 9 = B ++ [l] := ⟨_, _, (List.dropLast_concat_getLast (by simp [lines_of_write, sampleObj, allPts, Mesh.make])).symm⟩
    exact ⟨unlines B ++ l, by rw [hB, unlines_append, unlines_cons]; simp [unlines]⟩
  · simp [lines_of_write, sampleObj, allPts, Mesh.make, unlines]
  · intro e
    have := congrArg (List.count '\n') e
    have hok := write_ok_lines (ms := sampleObj) (by decide)
    rw [count_unlines hok, count_unlines fun l hl => hok l (List.mem_of_mem_take hl)] at this
    simp [lines_of_write, sampleObj, allPts, Mesh.make, offs, objLines] at this

end City.Props
