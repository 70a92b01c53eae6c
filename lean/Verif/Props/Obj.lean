import Verif.Lemmas.ObjCanon
import Verif.Spec.Obj
/-!
Properties C23 - C27: the OBJ stream. All theorems hold for every conversion `rnd` of decimals to doubles that is exact on
the natural numbers up to 2^53 (`IsRounding` where the rounding of coordinates matters).
-/
set_option exponentiation.threshold 2000
namespace City.Props
open City Spec

/-! ### C23 -/

theorem readBack_readPt (rnd : ℚ → ℚ) {p : V3 ℚ} (h : FinitePoint p) : ReadBack rnd p (Off.readPt rnd p) := by
  have key : ∀ x : ℚ, |x| ≤ dblMax → scanDecs rnd (dblText x) = [rnd (round6 x)] := by
    intro x hx
    have := scanDecs_dblText rnd hx stop_nil
    rwa [List.append_nil, scanDecs_nil] at this
  exact ⟨key _ h.1, key _ h.2.1, key _ h.2.2⟩

theorem polygons_canon {rnd : ℚ → ℚ} {m : Mesh} (hv : Valid m) :
    polygons (Obj.canon rnd m) = (polygons m).map (·.map (·.map (Off.readPt rnd))) := by
  unfold polygons Obj.canon Mesh.make polygon
  simp only [List.map_map]
  apply List.map_congr_left
  intro f hf
  simp only [Function.comp, List.map_map]
  apply List.map_congr_left
  intro i hi
  have hi' : i ∈ Obj.addSeen [] (Obj.faceIdx m) := by
    rw [Obj.mem_addSeen]; right
    exact List.mem_flatten.2 ⟨f.points, List.mem_map.2 ⟨f, hf, rfl⟩, hi⟩
  have hlt := List.idxOf_lt_length_iff.2 hi'
  simp only [Function.comp]
  rw [List.getElem?_map, List.getElem?_eq_getElem hlt, List.getElem_idxOf, Option.map_some]
  have := hv f hf i hi
  simp [this]

theorem valid_canon (rnd : ℚ → ℚ) (m : Mesh) : Valid (Obj.canon rnd m) := by
  intro f hf i hi
  have hc := Obj.canonical_canon rnd m
  unfold Obj.Canonical at hc
  have : i ∈ Obj.addSeen [] (Obj.faceIdx (Obj.canon rnd m)) := by
    rw [Obj.mem_addSeen]; right
    exact List.mem_flatten.2 ⟨f.points, List.mem_map.2 ⟨f, hf, rfl⟩, hi⟩
  rw [hc, List.mem_range] at this
  exact this

theorem sorted_names {ms : List Mesh} (rnd : ℚ → ℚ) :
    ((Obj.emplaceAll (ms.map fun m => (m.name, m))).map fun y => Obj.canon rnd y.2).Pairwise fun a b => a.name < b.name := by
  rw [List.pairwise_map]
  have hs := Obj.sorted_emplaceAll (ms.map fun m => (m.name, m))
  unfold Obj.Sorted at hs
  refine List.Pairwise.imp_of_mem ?_ hs
  intro a b ha hb hab
  obtain ⟨m, -, rfl⟩ := List.mem_map.1 (Obj.mem_emplaceAll ha)
  obtain ⟨m', -, rfl⟩ := List.mem_map.1 (Obj.mem_emplaceAll hb)
  exact hab

/-- C23: for meshes with distinct names: the text is written and read back; the meshes read are in the order of their
names, are valid, and are the written ones up to this order: same name, same polygons in the same order, each
coordinate being what is read from the printed coordinate. -/
theorem C23_round_trip (rnd : ℚ → ℚ) (hr : ∀ n : ℕ, n ≤ 2 ^ 53 → rnd n = n) (ms : List Mesh) (hne : ms ≠ [])
    (h : ObjReady ms) (hd : (ms.map (·.name)).Nodup) :
    ∃ t rs g, Obj.write ms = .ok t ∧ Obj.read rnd t = .ok rs ∧ rs.Pairwise (fun a b => a.name < b.name) ∧
      (∀ r ∈ rs, Valid r ∧ r.bbox = Mesh.computeBbox r.points) ∧ (∀ m ∈ ms, ∀ p ∈ m.points, ReadBack rnd p (g p)) ∧
      (rs.map fun r => (r.name, polygons r)).Perm (ms.map fun m => (m.name, (polygons m).map (·.map (·.map g)))) := by
  obtain ⟨t, h1, h2⟩ := Obj.read_write hr hne h
  refine ⟨t, _, Off.readPt rnd, h1, h2, sorted_names rnd, ?_, ?_, ?_⟩
  · intro r hr
    obtain ⟨y, -, rfl⟩ := List.mem_map.1 hr
    exact ⟨valid_canon rnd _, rfl⟩
  · intro m hm p hp
    exact readBack_readPt rnd (h.finite m hm p hp)
  · rw [List.map_map]
    have hp := Obj.perm_emplaceAll (xs := ms.map fun m => (m.name, m)) (by rw [List.map_map]; exact hd)
    refine (hp.map _).trans ?_
    rw [List.map_map]
    apply List.Perm.of_eq
    apply List.map_congr_left
    intro m hm
    simp only [Function.comp]
    rw [polygons_canon (h.valid m hm)]
    rfl

theorem readPt_exact {rnd : ℚ → ℚ} {p : V3 ℚ} (hd : FewDigits p.x ∧ FewDigits p.y ∧ FewDigits p.z)
    (hr : rnd p.x = p.x ∧ rnd p.y = p.y ∧ rnd p.z = p.z) : Off.readPt rnd p = p := by
  obtain ⟨d1, d2, d3⟩ := hd
  obtain ⟨r1, r2, r3⟩ := hr
  simp [Off.readPt, round6_exact d1, round6_exact d2, round6_exact d3, r1, r2, r3]

theorem polygons_fixed {g : V3 ℚ → V3 ℚ} {m : Mesh} (hg : ∀ p ∈ m.points, g p = p) :
    (polygons m).map (·.map (·.map g)) = polygons m := by
  conv_rhs => rw [← List.map_id (polygons m)]
  apply List.map_congr_left
  intro l hl
  unfold polygons at hl
  obtain ⟨f, -, rfl⟩ := List.mem_map.1 hl
  conv_rhs => rw [id, ← List.map_id (polygon _ f)]
  apply List.map_congr_left
  intro o ho
  unfold polygon at ho
  obtain ⟨i, -, rfl⟩ := List.mem_map.1 ho
  cases hi : m.points[i]? with
  | none => rfl
  | some p => simp [hg p (List.mem_of_getElem? hi)]

/-- C23: with coordinates of at most six digits that are doubles the polygons themselves come back. -/
theorem C23_exact (rnd : ℚ → ℚ) (hr : ∀ n : ℕ, n ≤ 2 ^ 53 → rnd n = n) (ms : List Mesh) (hne : ms ≠ [])
    (h : ObjReady ms) (hd : (ms.map (·.name)).Nodup) (hf : ∀ m ∈ ms, FewDigitsMesh m)
    (hx : ∀ m ∈ ms, ∀ p ∈ m.points, rnd p.x = p.x ∧ rnd p.y = p.y ∧ rnd p.z = p.z) :
    ∃ t rs, Obj.write ms = .ok t ∧ Obj.read rnd t = .ok rs ∧ rs.Pairwise (fun a b => a.name < b.name) ∧
      (rs.map fun r => (r.name, polygons r)).Perm (ms.map fun m => (m.name, polygons m)) := by
  obtain ⟨t, h1, h2⟩ := Obj.read_write hr hne h
  refine ⟨t, _, h1, h2, sorted_names rnd, ?_⟩
  rw [List.map_map]
  have hp := Obj.perm_emplaceAll (xs := ms.map fun m => (m.name, m)) (by rw [List.map_map]; exact hd)
  refine (hp.map _).trans ?_
  rw [List.map_map]
  apply List.Perm.of_eq
  apply List.map_congr_left
  intro m hm
  simp only [Function.comp]
  rw [polygons_canon (h.valid m hm), polygons_fixed fun p hp => readPt_exact (hf m hm p hp) (hx m hm p hp)]
  rfl

theorem find_emplace {α : Type} (n : Text) (x : Text × α) (l : List (Text × α)) (hs : Obj.Sorted l) :
    (Obj.emplace x l).find? (fun y => y.1 == n) = (l ++ [x]).find? fun y => y.1 == n := by
  induction l with
  | nil => rfl
  | cons y ys ih =>
    unfold Obj.Sorted at hs ih
    rw [List.pairwise_cons] at hs
    rw [Obj.emplace]
    split
    · rename_i hlt
      have hno : ∀ z ∈ y :: ys, z.1 ≠ x.1 := by
        intro z hz he
        rcases List.mem_cons.1 hz with rfl | hz
        · rw [he] at hlt; exact lt_irrefl _ hlt
        · have := lt_trans hlt (hs.1 z hz); rw [he] at this; exact lt_irrefl _ this
      by_cases hx : x.1 = n
      · rw [List.find?_cons_of_pos (by simp [hx])]
        rw [List.find?_append, List.find?_eq_none.2]
        · simp [hx]
        · intro z hz; simp only [beq_iff_eq]; rw [← hx]; exact hno z hz
      · rw [List.find?_cons_of_neg (by simpa using hx), List.find?_append]
        simp [hx]
    · split
      · rename_i he
        by_cases hy : y.1 = n
        · rw [List.find?_cons_of_pos (by simp [hy]), List.cons_append, List.find?_cons_of_pos (by simp [hy])]
        · rw [List.find?_append, List.find?_cons_of_neg (p := fun y => y.1 == n) (a := x) (by simpa [he] using hy)]
          simp
      · rw [List.cons_append]
        by_cases hy : y.1 = n
        · rw [List.find?_cons_of_pos (by simp [hy]), List.find?_cons_of_pos (by simp [hy])]
        · rw [List.find?_cons_of_neg (by simpa using hy), List.find?_cons_of_neg (by simpa using hy), ih hs.2]

theorem find_emplaceAll {α : Type} (n : Text) (xs : List (Text × α)) :
    (Obj.emplaceAll xs).find? (fun y => y.1 == n) = xs.find? fun y => y.1 == n := by
  have : ∀ (xs m : List (Text × α)), Obj.Sorted m →
      (xs.foldl (fun m x => Obj.emplace x m) m).find? (fun y => y.1 == n) = (m ++ xs).find? fun y => y.1 == n := by
    intro xs
    induction xs with
    | nil => intro m _; simp
    | cons x xs ih =>
      intro m hm
      rw [List.foldl_cons, ih _ (Obj.sorted_emplace x hm), List.find?_append, find_emplace n x m hm,
        List.find?_append, List.find?_append, Option.or_assoc]
      congr 1
      rw [← List.find?_append]; rfl
  exact this xs [] .nil

/-- C23: without the hypothesis on names: there is exactly one mesh per name, made of the polygons of the FIRST mesh with
that name; the other meshes with that name are lost. -/
theorem C23_duplicate_names (rnd : ℚ → ℚ) (hr : ∀ n : ℕ, n ≤ 2 ^ 53 → rnd n = n) (ms : List Mesh) (hne : ms ≠ [])
    (h : ObjReady ms) :
    ∃ t rs g, Obj.write ms = .ok t ∧ Obj.read rnd t = .ok rs ∧ rs.Pairwise (fun a b => a.name < b.name) ∧
      (∀ m ∈ ms, ∀ p ∈ m.points, ReadBack rnd p (g p)) ∧
      (∀ n, (rs.find? fun r => r.name == n).map polygons =
        (ms.find? fun m => m.name == n).map fun m => (polygons m).map (·.map (·.map g))) := by
  obtain ⟨t, h1, h2⟩ := Obj.read_write hr hne h
  refine ⟨t, _, Off.readPt rnd, h1, h2, sorted_names rnd, ?_, ?_⟩
  · intro m hm p hp
    exact readBack_readPt rnd (h.finite m hm p hp)
  · intro n
    have e := find_emplaceAll n (ms.map fun m => (m.name, m))
    rw [List.find?_map] at e
    rw [List.find?_map]
    have e2 : (Obj.emplaceAll (ms.map fun m => (m.name, m))).find? ((fun r => r.name == n) ∘ fun y => Obj.canon rnd y.2) =
        (Obj.emplaceAll (ms.map fun m => (m.name, m))).find? fun y => y.1 == n := by
      have hall : ∀ y ∈ Obj.emplaceAll (ms.map fun m => (m.name, m)), y.2.name = y.1 := by
        intro y hy
        obtain ⟨m, -, rfl⟩ := List.mem_map.1 (Obj.mem_emplaceAll hy)
        rfl
      generalize Obj.emplaceAll (ms.map fun m => (m.name, m)) = L at hall
      induction L with
      | nil => rfl
      | cons a L ih =>
        have ha := hall a (by simp)
        have ihh := ih fun y hy => hall y (by simp [hy])
        rw [List.find?_cons, List.find?_cons, ihh]
        have : ((fun r => r.name == n) ∘ fun y : Text × Mesh => Obj.canon rnd y.2) a = (a.1 == n) := by
          simp only [Function.comp, Obj.canon, Mesh.make, ha]
        rw [this]
    rw [e2, e]
    have e3 : ((fun y : Text × Mesh => y.1 == n) ∘ fun m : Mesh => (m.name, m)) = fun m => m.name == n := rfl
    rw [e3]
    cases hf : ms.find? (fun m => m.name == n) with
    | none => rfl
    | some m =>
      simp only [Option.map_some]
      rw [polygons_canon (h.valid m (List.mem_of_find?_eq_some hf))]

/-- Two meshes meeting the hypotheses of C23 (and C27), one with an unused point. -/
def sampleObj : List Mesh :=
  [Mesh.make ['r', 'o', 'o', 'f'] [⟨0, 0, 1 / 2⟩, ⟨1, 0, 1 / 2⟩, ⟨7, 7, 7⟩, ⟨0, 1, -3⟩] [⟨[3, 0, 1]⟩, ⟨[1, 0, 3]⟩],
   Mesh.make ['b'] [⟨0, 0, 0⟩, ⟨1, 0, 0⟩, ⟨1, 1, 0⟩] [⟨[0, 1, 2]⟩]]

theorem sampleObj_ready : ObjReady sampleObj ∧ (sampleObj.map (·.name)).Nodup ∧ sampleObj ≠ [] ∧ ∀ m ∈ sampleObj, FewDigitsMesh m := by
  have f0 : FewDigits 0 := ⟨0, 0, by norm_num, by simp⟩
  have f1 : FewDigits 1 := ⟨1, 0, by norm_num, by simp⟩
  have f2 : FewDigits (1 / 2) := ⟨5, -1, by norm_num, by rw [abs_of_pos (by norm_num)]; norm_num⟩
  have f3 : FewDigits (-3) := ⟨3, 0, by norm_num, by norm_num⟩
  have f7 : FewDigits 7 := ⟨7, 0, by norm_num, by norm_num⟩
  refine ⟨⟨?_, by decide, by decide, by unfold NoBlank; decide, by decide⟩, by decide, by decide, ?_⟩
  · intro m hm p hp
    simp only [sampleObj, List.mem_cons, List.not_mem_nil, or_false] at hm
    rcases hm with rfl | rfl <;> simp only [Mesh.make, List.mem_cons, List.not_mem_nil, or_false] at hp
    · rcases hp with rfl | rfl | rfl | rfl <;> simp [FinitePoint, dblMax] <;> norm_num
    · rcases hp with rfl | rfl | rfl <;> simp [FinitePoint, dblMax] <;> norm_num
  · intro m hm p hp
    simp only [sampleObj, List.mem_cons, List.not_mem_nil, or_false] at hm
    rcases hm with rfl | rfl <;> simp only [Mesh.make, List.mem_cons, List.not_mem_nil, or_false] at hp
    · rcases hp with rfl | rfl | rfl | rfl <;> simp [f0, f1, f3, f7] <;> simpa using f2
    · rcases hp with rfl | rfl | rfl <;> simp [f0, f1]

/-! ### C24 -/

/-- C24 (full statement, false of the code): what was read can be written, and reading that gives the same meshes. -/
def C24_full : Prop :=
  ∀ (rnd : ℚ → ℚ), IsRounding rnd → ∀ (t : Text) (ms : List Mesh), Obj.read rnd t = .ok ms →
    ∃ t', Obj.write ms = .ok t' ∧ Obj.read rnd t' = .ok ms

theorem isRounding_id : IsRounding id := by
  refine ⟨fun _ _ => rfl, fun v _ => ?_⟩
  simp only [id, sub_self, abs_zero]
  exact mul_nonneg (zpow_nonneg (by norm_num) _) (abs_nonneg _)

theorem scan_digits1 (rnd : ℚ → ℚ) (d : Nat) (hd : d < 10) (r : Text) (hr : Stop r) :
    scanDecs rnd (Char.ofNat (48 + d) :: r) = rnd d :: scanDecs rnd r := by
  have : natText d = [Char.ofNat (48 + d)] := by
    interval_cases d <;> rfl
  have h := Obj.scanDecs_natText rnd (n := d) (by omega) hr
  rw [this] at h
  exact h

/-- C24 refuted: a file with vertexes only is read as an empty list of meshes, which the writer cannot write. (The second
reason is C22_loss: coordinates of more than six digits change once.) -/
theorem C24_refuted : ¬ C24_full := by
  intro h
  have hread : Obj.read id "v 0 0 0\n".toList = .ok [] := by
    have e : Obj.parse "v 0 0 0\n".toList = [['v', ' ', '0', ' ', '0', ' ', '0']] := by decide
    have hs : scanDecs id [' ', '0', ' ', '0', ' ', '0'] = [0, 0, 0] := by
      have z : ∀ r, Stop r → scanDecs id ('0' :: r) = 0 :: scanDecs id r := fun r hr => by
        have := scan_digits1 id 0 (by decide) r hr; simpa using this
      have sp : ∀ r, Stop (' ' :: r) := fun r => stop_space (by decide)
      simp only [z _ (sp _), z _ stop_nil, scanDecs_space id (show isSpace ' ' = true by decide), scanDecs_nil]
    unfold Obj.read
    simp only [e]
    rw [if_neg (by simp)]
    have : Obj.readPoints id [['v', ' ', '0', ' ', '0', ' ', '0']] = .ok [⟨0, 0, 0⟩, ⟨0, 0, 0⟩] := by
      unfold Obj.readPoints
      have e2 : List.takeWhile Obj.isV [['v', ' ', '0', ' ', '0', ' ', '0']] = [['v', ' ', '0', ' ', '0', ' ', '0']] := by decide
      rw [e2, Out.mapM_cons]
      unfold Obj.line2pt
      rw [List.tail_cons, hs]
      rfl
    rw [this, Out.ok_bind]
    rfl
  obtain ⟨t', h1, -⟩ := h id isRounding_id _ _ hread
  simp [Obj.write] at h1

/-- The coordinates of the meshes are finite and not subnormal. -/
def NormalMeshes (ms : List Mesh) : Prop :=
  ∀ m ∈ ms, ∀ p ∈ m.points, FinitePoint p ∧ NormalCoord p.x ∧ NormalCoord p.y ∧ NormalCoord p.z

theorem ready_of_read {rnd : ℚ → ℚ} {t : Text} {ms : List Mesh} (h : Obj.read rnd t = .ok ms)
    (hf : ∀ m ∈ ms, ∀ p ∈ m.points, FinitePoint p) (hs : (ms.flatMap (·.points)).length ≤ 2 ^ 53) :
    ObjReady ms ∧ Obj.Sorted (ms.map fun m => (m.name, m)) ∧
      ∀ m ∈ ms, Obj.Canonical m ∧ m.bbox = Mesh.computeBbox m.points := by
  obtain ⟨ps, -, objs, hso, hF, hnm⟩ := Obj.read_ok h
  have hall : ∀ m ∈ ms, ∃ o ∈ objs, Obj.readObj rnd (⟨0, 0, 0⟩ :: ps) o = .ok m := by
    intro m hm
    obtain ⟨i, hi, rfl⟩ := List.mem_iff_getElem.1 hm
    have hlen := hF.length_eq
    have := hF.get (i := i) (by omega) hi
    exact ⟨objs[i], List.getElem_mem _, this⟩
  refine ⟨⟨hf, ?_, ?_, ?_, hs⟩, Obj.sorted_ext hso hF, ?_⟩
  · intro m hm
    obtain ⟨o, -, ho⟩ := hall m hm
    obtain ⟨_, _, _, _, _, _, _, _, _, h3, _⟩ := Obj.readObj_spec ho
    exact h3
  · intro m hm
    obtain ⟨o, -, ho⟩ := hall m hm
    obtain ⟨_, _, _, _, _, _, _, _, hv, _⟩ := Obj.readObj_spec ho
    exact hv
  · intro m hm
    obtain ⟨o, ho', ho⟩ := hall m hm
    obtain ⟨_, _, _, _, _, hn, _⟩ := Obj.readObj_spec ho
    rw [hn]; exact hnm o ho'
  · intro m hm
    obtain ⟨o, -, ho⟩ := hall m hm
    obtain ⟨_, _, _, _, _, _, hb, hc, _⟩ := Obj.readObj_spec ho
    exact ⟨hc, hb⟩

theorem map_canon_sorted {rnd : ℚ → ℚ} {ms : List Mesh} (hs : Obj.Sorted (ms.map fun m => (m.name, m)))
    (hc : ∀ m ∈ ms, Obj.Canonical m) :
    (Obj.emplaceAll (ms.map fun m => (m.name, m))).map (fun y => Obj.canon rnd y.2) =
      ms.map fun m => Mesh.make m.name (m.points.map (Off.readPt rnd)) m.faces := by
  rw [Obj.emplaceAll_of_sorted hs, List.map_map]
  apply List.map_congr_left
  intro m hm
  exact Obj.canon_of_canonical (hc m hm)

/-- C24: meshes read from a text (at least one) whose coordinates have at most six digits come back unchanged: points,
faces, names and order.
Missing from the full property: texts without object, coordinates with more digits (see C24_second_trip). -/
theorem C24_fixed_partial (rnd : ℚ → ℚ) (hr : ∀ n : ℕ, n ≤ 2 ^ 53 → rnd n = n) (t : Text) (ms : List Mesh)
    (h : Obj.read rnd t = .ok ms) (hne : ms ≠ []) (hs : (ms.flatMap (·.points)).length ≤ 2 ^ 53)
    (hf : ∀ m ∈ ms, ∀ p ∈ m.points, FinitePoint p) (hd : ∀ m ∈ ms, FewDigitsMesh m)
    (hx : ∀ m ∈ ms, ∀ p ∈ m.points, rnd p.x = p.x ∧ rnd p.y = p.y ∧ rnd p.z = p.z) :
    ∃ t', Obj.write ms = .ok t' ∧ Obj.read rnd t' = .ok ms := by
  obtain ⟨hready, hsort, hcan⟩ := ready_of_read h hf hs
  obtain ⟨t', h1, h2⟩ := Obj.read_write hr hne hready
  refine ⟨t', h1, ?_⟩
  rw [h2, map_canon_sorted hsort fun m hm => (hcan m hm).1]
  congr 1
  conv_rhs => rw [← List.map_id ms]
  apply List.map_congr_left
  intro m hm
  have : m.points.map (Off.readPt rnd) = m.points := by
    conv_rhs => rw [← List.map_id m.points]
    apply List.map_congr_left
    intro p hp
    exact readPt_exact (hd m hm p hp) (hx m hm p hp)
  rw [this]
  have hb := (hcan m hm).2
  cases m
  simp only [Mesh.make, id] at *
  rw [hb]

theorem reread {rnd : ℚ → ℚ} (hr : IsRounding rnd) {x : ℚ} (hx : |x| ≤ dblMax) (hn : NormalCoord x) :
    round6 (rnd (round6 x)) = round6 x ∧ |rnd (round6 x)| ≤ dblMax := by
  rcases hn with rfl | hn
  · have := hr.small_nat 0 (by norm_num)
    simp at this
    rw [round6_zero, this, round6_zero]
    exact ⟨rfl, hx⟩
  · have herr := round6_error x
    have hlow : (2 : ℚ) ^ (-1022 : ℤ) ≤ |round6 x| := by
      have h1 : |x| - |round6 x - x| ≤ |round6 x| := by
        have := abs_sub_abs_le_abs_sub x (x - round6 x)
        have e : x - (x - round6 x) = round6 x := by ring
        rw [e, abs_sub_comm x] at this
        exact this
      have h2 : (1 : ℚ) / 2 * |x| ≤ |round6 x| := by
        have := abs_nonneg x; linarith
      refine le_trans ?_ (le_trans (mul_le_mul_of_nonneg_left hn (by norm_num)) h2)
      rw [show (-1022 : ℤ) = -((1022 : ℕ) : ℤ) by rfl, show (-307 : ℤ) = -((307 : ℕ) : ℤ) by rfl, zpow_neg, zpow_neg,
        zpow_natCast, zpow_natCast]
      norm_num
    have he := hr.error _ hlow
    have hub : |round6 x| ≤ 179769 * 10 ^ (303 : ℤ) := by
      have key : ∀ y : ℚ, y ≤ dblMax → round6 y ≤ 179769 * 10 ^ (303 : ℤ) := by
        intro y hy
        have := round6_mono hy
        rwa [round6_pos (x := dblMax) (by unfold dblMax; norm_num), six_dblMax] at this
      rw [abs_le] at hx ⊢
      refine ⟨?_, key x hx.2⟩
      have := key (-x) (by linarith)
      rw [round6_neg] at this
      linarith
    refine ⟨round6_near (le_trans he (mul_le_mul_of_nonneg_right ?_ (abs_nonneg _))), ?_⟩
    · rw [show (-53 : ℤ) = -((53 : ℕ) : ℤ) by rfl, zpow_neg, zpow_natCast]
      norm_num
    · have h1 : |rnd (round6 x)| ≤ |round6 x| + (2 : ℚ) ^ (-53 : ℤ) * |round6 x| := by
        have := abs_sub_abs_le_abs_sub (rnd (round6 x)) (round6 x)
        linarith
      refine le_trans h1 ?_
      have h2 : (2 : ℚ) ^ (-53 : ℤ) ≤ 1 / 10 ^ 8 := by
        rw [show (-53 : ℤ) = -((53 : ℕ) : ℤ) by rfl, zpow_neg, zpow_natCast]
        norm_num
      have h3 := mul_le_mul_of_nonneg_right h2 (abs_nonneg (round6 x))
      refine le_trans (add_le_add_right h3 _) ?_
      have h4 : |round6 x| + 1 / 10 ^ 8 * |round6 x| ≤ (1 + 1 / 10 ^ 8) * (179769 * 10 ^ (303 : ℤ)) := by
        have e : |round6 x| + 1 / 10 ^ 8 * |round6 x| = (1 + 1 / 10 ^ 8) * |round6 x| := by ring
        rw [e]
        exact mul_le_mul_of_nonneg_left hub (by norm_num)
      refine le_trans h4 ?_
      unfold dblMax
      rw [show (303 : ℤ) = ((303 : ℕ) : ℤ) by rfl, zpow_natCast]
      norm_num

/-- C24: in general (any number of digits) writing what was read and reading it again keeps names, order, faces and
the number of points, each coordinate being read back from its print; from then on nothing changes any more: the
meshes `r1` are written as the same text, read as the same meshes. -/
theorem C24_second_trip (rnd : ℚ → ℚ) (hr : IsRounding rnd) (t : Text) (ms : List Mesh)
    (h : Obj.read rnd t = .ok ms) (hne : ms ≠ []) (hs : (ms.flatMap (·.points)).length ≤ 2 ^ 53) (hn : NormalMeshes ms) :
    ∃ t1 r1, Obj.write ms = .ok t1 ∧ Obj.read rnd t1 = .ok r1 ∧
      List.Forall₂ (fun m r => r.name = m.name ∧ r.faces = m.faces ∧ List.Forall₂ (ReadBack rnd) m.points r.points) ms r1 ∧
      Obj.write r1 = .ok t1 := by
  obtain ⟨hready, hsort, hcan⟩ := ready_of_read h (fun m hm p hp => (hn m hm p hp).1) hs
  obtain ⟨t1, h1, h2⟩ := Obj.read_write hr.small_nat hne hready
  rw [map_canon_sorted hsort fun m hm => (hcan m hm).1] at h2
  refine ⟨t1, _, h1, h2, ?_, ?_⟩
  · rw [List.forall₂_map_right_iff]
    apply List.forall₂_same.2
    intro m hm
    refine ⟨rfl, rfl, ?_⟩
    simp only [Mesh.make]
    rw [List.forall₂_map_right_iff]
    exact List.forall₂_same.2 fun p hp => readBack_readPt rnd (hn m hm p hp).1
  · rw [← h1]
    have hv : ∀ m ∈ ms, ∀ p ∈ m.points, Obj.vLine (Off.readPt rnd p) = Obj.vLine p := by
      intro m hm p hp
      obtain ⟨⟨f1, f2, f3⟩, n1, n2, n3⟩ := hn m hm p hp
      unfold Obj.vLine Off.pointText Off.readPt
      simp only
      rw [dblText_congr (reread hr f1 n1).1, dblText_congr (reread hr f2 n2).1, dblText_congr (reread hr f3 n3).1]
    unfold Obj.write
    rw [if_neg (by simpa using hne), if_neg hne]
    congr 2
    unfold Obj.writeLines
    congr 1
    · rw [List.flatMap_map]
      apply List.flatMap_congr
      intro m hm
      simp only [Mesh.make, List.map_map]
      apply List.map_congr_left
      intro p hp
      exact hv m hm p hp
    · have hsh : Obj.shifts (ms.map fun m => Mesh.make m.name (m.points.map (Off.readPt rnd)) m.faces) = Obj.shifts ms := by
        unfold Obj.shifts
        rw [← List.map_dropLast, List.map_map]
        congr 2
        apply List.map_congr_left
        intro m _
        simp [Mesh.make]
      rw [hsh, List.zip_map_left, List.flatMap_map]
      rfl

/-- The hypotheses of C24 are met by the text written for `sampleObj`. -/
example : ∃ t ms, Obj.read id t = .ok ms ∧ ms ≠ [] ∧ (ms.flatMap (·.points)).length ≤ 2 ^ 53 ∧
    (∀ m ∈ ms, ∀ p ∈ m.points, FinitePoint p) ∧ (∀ m ∈ ms, FewDigitsMesh m) := by
  obtain ⟨h1, h2, h3, h4⟩ := sampleObj_ready
  obtain ⟨t, -, ht⟩ := Obj.read_write (rnd := id) (fun _ _ => rfl) h3 h1
  have hsub : ∀ m ∈ (Obj.emplaceAll (sampleObj.map fun m => (m.name, m))).map (fun y => Obj.canon id y.2),
      ∀ p ∈ m.points, ∃ m' ∈ sampleObj, p ∈ m'.points := by
    intro m hm p hp
    obtain ⟨y, hy, rfl⟩ := List.mem_map.1 hm
    obtain ⟨m', hm', rfl⟩ := List.mem_map.1 (Obj.mem_emplaceAll hy)
    refine ⟨m', hm', ?_⟩
    simp only [Obj.canon, Mesh.make] at hp
    obtain ⟨i, hi, rfl⟩ := List.mem_map.1 hp
    rw [Obj.mem_addSeen] at hi
    rcases hi with hi | hi
    · simp at hi
    obtain ⟨l, hl, hi⟩ := List.mem_flatten.1 hi
    obtain ⟨f, hf, rfl⟩ := List.mem_map.1 hl
    have hlt := h1.valid m' hm' f hf i hi
    have hmem : m'.points.getD i ⟨0, 0, 0⟩ ∈ m'.points := by
      simp [hlt]
    rw [readPt_exact (h4 m' hm' _ hmem) ⟨rfl, rfl, rfl⟩]
    exact hmem
  refine ⟨t, _, ht, ?_, ?_, ?_, ?_⟩
  · decide
  · have : (((Obj.emplaceAll (sampleObj.map fun m => (m.name, m))).map (fun y => Obj.canon id y.2)).flatMap (·.points)).length
        = 6 := by
      rw [List.length_flatMap, List.map_map]
      have : (fun m : Mesh => m.points.length) ∘ (fun y : Text × Mesh => Obj.canon id y.2) =
          fun y => (Obj.addSeen [] (Obj.faceIdx y.2)).length := by
        funext y; simp [Obj.canon, Mesh.make]
      rw [this]
      decide
    rw [this]; decide
  · intro m hm p hp
    obtain ⟨m', hm', hp'⟩ := hsub m hm p hp
    exact h1.finite m' hm' p hp'
  · intro m hm p hp
    obtain ⟨m', hm', hp'⟩ := hsub m hm p hp
    exact h4 m' hm' p hp'

/-! ### C25 -/

/-- C25: every mesh read has valid faces of degree at least three, no point without face, and its points are
taken from distinct vertex lines of the file: `ns` are their numbers. Number 0 is not a vertex line: the code accepts
it and gives it the origin (see C25_zero_index). -/
theorem C25_compact (rnd : ℚ → ℚ) (t : Text) (ms : List Mesh) (h : Obj.read rnd t = .ok ms) :
    ∃ vs : List (V3 ℚ), List.Forall₂ (fun l v => scanDecs rnd l.tail = [v.x, v.y, v.z]) (vertexLines t) vs ∧
      ∀ m ∈ ms, Valid m ∧ (∀ f ∈ m.faces, 3 ≤ f.degree) ∧
        (∀ k, k < m.points.length → ∃ f ∈ m.faces, k ∈ f.points) ∧
        ∃ ns : List Nat, ns.Nodup ∧ List.Forall₂ (fun p n => (⟨0, 0, 0⟩ :: vs)[n]? = some p) m.points ns := by
  obtain ⟨ps, hv, objs, hso, hF, hnm⟩ := Obj.read_ok h
  refine ⟨ps, ?_, ?_⟩
  · rw [Out.mapM_eq_ok] at hv
    refine hv.imp ?_
    intro l v hlv
    unfold Obj.line2pt at hlv
    generalize scanDecs rnd l.tail = ds at hlv
    unfold Obj.str2pt at hlv
    split at hlv
    · cases hlv; rfl
    · cases hlv
    · cases hlv
  · intro m hm
    obtain ⟨i, hi, rfl⟩ := List.mem_iff_getElem.1 hm
    have hlen := hF.length_eq
    have ho := hF.get (i := i) (by omega) hi
    simp only [List.get_eq_getElem] at ho
    obtain ⟨seen, hnd, hl, hg, hlt, _, _, _, hval, h3, hused, _⟩ := Obj.readObj_spec ho
    refine ⟨hval, h3, hused, seen, hnd, ?_⟩
    rw [List.forall₂_iff_get]
    refine ⟨hl, ?_⟩
    intro k h1 h2
    simp only [List.get_eq_getElem]
    rw [← hg k h2, List.getElem?_eq_getElem]

/-- Scanning the digits 0 .. 9 separated by blanks. -/
theorem scan_list (ds : List Nat) (h : ∀ d ∈ ds, d ≤ 2 ^ 53) :
    scanDecs id (ds.flatMap fun d => ' ' :: natText d) = ds.map fun d => (d : ℚ) := by
  induction ds with
  | nil => exact scanDecs_nil _
  | cons d ds ih =>
    have hst : Stop (ds.flatMap fun d => ' ' :: natText d) := by
      cases ds with
      | nil => exact stop_nil
      | cons e ds => exact stop_space (by decide)
    rw [List.flatMap_cons, List.cons_append, scanDecs_space id (by decide),
      Obj.scanDecs_natText id (h d (by simp)) hst, ih fun d hd => h d (by simp [hd])]
    rfl

/-- C25: a face may name the vertex number 0, which no file vertex has: it is read as the origin. -/
theorem C25_zero_index : Obj.read id "v 5 5 5\no a\nf 0 0 1\n".toList =
    .ok [Mesh.make ['a'] [⟨0, 0, 0⟩, ⟨5, 5, 5⟩] [⟨[0, 0, 1]⟩]] := by
  have e : Obj.parse "v 5 5 5\no a\nf 0 0 1\n".toList =
      [['v', ' ', '5', ' ', '5', ' ', '5'], ['o', ' ', 'a'], ['f', ' ', '0', ' ', '0', ' ', '1']] := by decide
  have s1 : scanDecs id [' ', '5', ' ', '5', ' ', '5'] = [5, 5, 5] := by
    have := scan_list [5, 5, 5] (by decide); simpa [natText, digitChar] using this
  have s2 : scanDecs id [' ', '0', ' ', '0', ' ', '1'] = [0, 0, 1] := by
    have := scan_list [0, 0, 1] (by decide); simpa [natText, digitChar] using this
  have ho : Obj.objects (Obj.parse "v 5 5 5\no a\nf 0 0 1\n".toList) = [(['a'], 2, 1)] := by
    rw [e]; decide
  unfold Obj.read
  simp only [ho]
  rw [e, if_neg (by simp)]
  have hp : Obj.readPoints id [['v', ' ', '5', ' ', '5', ' ', '5'], ['o', ' ', 'a'], ['f', ' ', '0', ' ', '0', ' ', '1']] =
      .ok [⟨0, 0, 0⟩, ⟨5, 5, 5⟩] := by
    unfold Obj.readPoints
    have e2 : List.takeWhile Obj.isV [['v', ' ', '5', ' ', '5', ' ', '5'], ['o', ' ', 'a'], ['f', ' ', '0', ' ', '0', ' ', '1']]
        = [['v', ' ', '5', ' ', '5', ' ', '5']] := by decide
    rw [e2, Out.mapM_cons]
    unfold Obj.line2pt
    rw [List.tail_cons, s1]
    rfl
  rw [hp, Out.ok_bind, Out.mapM_cons]
  unfold Obj.readObject
  simp only [List.drop_succ_cons, List.drop_zero, List.take_succ_cons, List.take_zero]
  rw [Obj.readFacets, Obj.readFacet, List.tail_cons, s2]
  have hi : Out.mapM Obj.toIndex [0, 0, 1] = .ok [0, 0, 1] := by
    rw [Out.mapM_eq_ok]
    have h0 : Obj.toIndex 0 = .ok 0 := by have := Obj.toIndex_natCast (n := 0) (by decide); simpa using this
    have h1 : Obj.toIndex 1 = .ok 1 := by have := Obj.toIndex_natCast (n := 1) (by decide); simpa using this
    exact .cons h0 (.cons h0 (.cons h1 .nil))
  rw [hi]
  rfl

/-! ### C26 -/

/-- C26 (full statement, false of the code): reading any text has a defined outcome. -/
def C26_full : Prop := ∀ (rnd : ℚ → ℚ) (t : Text), Obj.read rnd t ≠ .ub

/-- C26 refuted: a vertex line with four numbers (allowed by the format) is undefined behaviour. -/
theorem C26_refuted : ¬ C26_full := by
  intro h
  apply h id "v 0 0 0 1\n".toList
  have e : Obj.parse "v 0 0 0 1\n".toList = [['v', ' ', '0', ' ', '0', ' ', '0', ' ', '1']] := by decide
  have s1 : scanDecs id [' ', '0', ' ', '0', ' ', '0', ' ', '1'] = [0, 0, 0, 1] := by
    have := scan_list [0, 0, 0, 1] (by decide); simpa [natText, digitChar] using this
  unfold Obj.read
  simp only [e]
  rw [if_neg (by simp)]
  unfold Obj.readPoints
  have e2 : List.takeWhile Obj.isV [['v', ' ', '0', ' ', '0', ' ', '0', ' ', '1']]
      = [['v', ' ', '0', ' ', '0', ' ', '0', ' ', '1']] := by decide
  rw [e2, Out.mapM_cons]
  unfold Obj.line2pt
  rw [List.tail_cons, s1]
  rfl

/-- C26: an index beyond the vertexes is undefined behaviour too. -/
theorem C26_index_beyond : Obj.read id "v 5 5 5\no a\nf 1 1 2\n".toList = .ub := by
  have e : Obj.parse "v 5 5 5\no a\nf 1 1 2\n".toList =
      [['v', ' ', '5', ' ', '5', ' ', '5'], ['o', ' ', 'a'], ['f', ' ', '1', ' ', '1', ' ', '2']] := by decide
  have s1 : scanDecs id [' ', '5', ' ', '5', ' ', '5'] = [5, 5, 5] := by
    have := scan_list [5, 5, 5] (by decide); simpa [natText, digitChar] using this
  have s2 : scanDecs id [' ', '1', ' ', '1', ' ', '2'] = [1, 1, 2] := by
    have := scan_list [1, 1, 2] (by decide); simpa [natText, digitChar] using this
  have ho : Obj.objects (Obj.parse "v 5 5 5\no a\nf 1 1 2\n".toList) = [(['a'], 2, 1)] := by
    rw [e]; decide
  unfold Obj.read
  simp only [ho]
  rw [e, if_neg (by simp)]
  have hp : Obj.readPoints id [['v', ' ', '5', ' ', '5', ' ', '5'], ['o', ' ', 'a'], ['f', ' ', '1', ' ', '1', ' ', '2']] =
      .ok [⟨0, 0, 0⟩, ⟨5, 5, 5⟩] := by
    unfold Obj.readPoints
    have e2 : List.takeWhile Obj.isV [['v', ' ', '5', ' ', '5', ' ', '5'], ['o', ' ', 'a'], ['f', ' ', '1', ' ', '1', ' ', '2']]
        = [['v', ' ', '5', ' ', '5', ' ', '5']] := by decide
    rw [e2, Out.mapM_cons]
    unfold Obj.line2pt
    rw [List.tail_cons, s1]
    rfl
  rw [hp, Out.ok_bind, Out.mapM_cons]
  unfold Obj.readObject
  simp only [List.drop_succ_cons, List.drop_zero, List.take_succ_cons, List.take_zero]
  rw [Obj.readFacets, Obj.readFacet, List.tail_cons, s2]
  have hi : Out.mapM Obj.toIndex [1, 1, 2] = .ok [1, 1, 2] := by
    rw [Out.mapM_eq_ok]
    have h0 : Obj.toIndex 1 = .ok 1 := by have := Obj.toIndex_natCast (n := 1) (by decide); simpa using this
    have h1 : Obj.toIndex 2 = .ok 2 := by have := Obj.toIndex_natCast (n := 2) (by decide); simpa using this
    exact .cons h0 (.cons h0 (.cons h1 .nil))
  rw [hi]
  rfl

theorem split_sections (ls : List Text) :
    ∃ (pre : List Text) (secs : List (Text × List Text)), ls = pre ++ secs.flatMap Obj.secLines ∧ (∀ l ∈ pre, Obj.isO l = false) ∧
      ∀ s ∈ secs, ∀ l ∈ s.2, Obj.isO l = false := by
  induction ls with
  | nil => exact ⟨[], [], rfl, by simp, by simp⟩
  | cons l ls ih =>
    obtain ⟨pre, secs, h1, h2, h3⟩ := ih
    by_cases hl : Obj.isO l = true
    · have : ∃ n, l = 'o' :: n := by
        unfold Obj.isO at hl
        cases l with
        | nil => simp at hl
        | cons c n => simp at hl; exact ⟨n, by rw [hl]⟩
      obtain ⟨n, rfl⟩ := this
      refine ⟨[], (n, pre) :: secs, ?_, by simp, ?_⟩
      · simp [Obj.secLines, h1]
      · intro s hs
        rcases List.mem_cons.1 hs with rfl | hs
        · exact h2
        · exact h3 s hs
    · refine ⟨l :: pre, secs, by simp [h1], ?_, h3⟩
      intro x hx
      rcases List.mem_cons.1 hx with rfl | hx
      · simpa using hl
      · exact h2 x hx

/-- The lines parsed as facets are lines after the vertexes, and no object lines. -/
theorem object_lines {t : Text} {o : Text × Nat × Nat} (ho : o ∈ Obj.objects (Obj.parse t)) :
    ∀ l ∈ ((Obj.parse t).drop o.2.1).take o.2.2, l ∈ otherLines t ∧ Obj.isO l = false := by
  have hsplit : Obj.parse t = vertexLines t ++ otherLines t := (List.takeWhile_append_dropWhile ..).symm
  obtain ⟨pre, secs, h1, h2, h3⟩ := split_sections (otherLines t)
  have hL : Obj.parse t = (vertexLines t ++ pre) ++ secs.flatMap Obj.secLines := by
    rw [hsplit]; conv_lhs => rw [h1]
    rw [List.append_assoc]
  have hres := Obj.resolve_sections (Obj.parse t) secs (vertexLines t ++ pre) hL h3
  have hdrop : (Obj.parse t).drop ((Obj.parse t).takeWhile Obj.isV).length = otherLines t := by
    have e : (Obj.parse t).takeWhile Obj.isV = vertexLines t := rfl
    rw [e]; conv_lhs => rw [hsplit]
    rw [List.drop_left' rfl]
  unfold Obj.objects at ho
  simp only [hdrop] at ho
  have ho' := Obj.mem_emplaceAll ho
  have hm : Obj.objMarks ((Obj.parse t).takeWhile Obj.isV).length (otherLines t) =
      Obj.objMarks (vertexLines t ++ pre).length (secs.flatMap Obj.secLines) := by
    conv_lhs => rw [h1]
    rw [Obj.objMarks_append _ h2, List.length_append]
    rfl
  rw [hm] at ho'
  have hmem := List.mem_map_of_mem (f := fun o : Text × Nat × Nat => (o.1, ((Obj.parse t).drop o.2.1).take o.2.2)) ho'
  rw [hres] at hmem
  obtain ⟨s, hs, he⟩ := List.mem_map.1 hmem
  have he2 := congrArg Prod.snd he
  simp only at he2
  intro l hl
  rw [← he2] at hl
  refine ⟨?_, h3 s hs l hl⟩
  rw [h1]
  apply List.mem_append_right
  exact List.mem_flatMap.2 ⟨s, hs, List.mem_cons_of_mem _ hl⟩

theorem readFacets_ne_ub {rnd : ℚ → ℚ} {N : Nat} (hN : N < 2 ^ 63) {ls : List Text} {seen : List Nat}
    (h : ∀ l ∈ ls, ∀ q ∈ scanDecs rnd l.tail, -1 < q ∧ q < (N : ℚ) + 1) (hs : ∀ i ∈ seen, i ≤ N) :
    Obj.readFacets rnd ls seen ≠ .ub ∧
      ∀ fs seen', Obj.readFacets rnd ls seen = .ok (fs, seen') → ∀ i ∈ seen', i ≤ N := by
  induction ls generalizing seen with
  | nil =>
    refine ⟨by simp [Obj.readFacets], ?_⟩
    intro fs seen' h' i hi
    cases h'
    exact hs i hi
  | cons l ls ih =>
    have hidx : Out.mapM Obj.toIndex (scanDecs rnd l.tail) = .ok ((scanDecs rnd l.tail).map fun q => ⌊q⌋₊) := by
      apply Out.mapM_ok_of
      intro q hq
      obtain ⟨hq1, hq2⟩ := h l (by simp) q hq
      unfold Obj.toIndex
      rw [if_neg]
      rintro (hh | hh)
      · linarith
      · have : (N : ℚ) < 2 ^ 63 := by exact_mod_cast hN
        have h64 : (2 : ℚ) ^ 64 ≤ 2 ^ 63 + 1 := le_trans hh (by linarith)
        norm_num at h64
    have hbound : ∀ i ∈ (scanDecs rnd l.tail).map (fun q => ⌊q⌋₊), i ≤ N := by
      intro i hi
      obtain ⟨q, hq, rfl⟩ := List.mem_map.1 hi
      obtain ⟨hq1, hq2⟩ := h l (by simp) q hq
      have hlt : ⌊q⌋₊ < N + 1 := by
        rcases le_or_gt 0 q with h0 | h0
        · rw [Nat.floor_lt h0]; push_cast; exact hq2
        · rw [Nat.floor_of_nonpos h0.le]; omega
      omega
    rw [Obj.readFacets, Obj.readFacet, hidx, Out.ok_bind]
    generalize (scanDecs rnd l.tail).map (fun q => ⌊q⌋₊) = is at hbound
    have hseen : ∀ i ∈ Obj.addSeen seen is, i ≤ N := by
      intro i hi
      rw [Obj.mem_addSeen] at hi
      rcases hi with hi | hi
      · exact hs i hi
      · exact hbound i hi
    unfold Face.mk?
    split
    · constructor
      · simp
      · intro fs seen' h'; simp at h'
    · simp only [Out.ok_bind]
      obtain ⟨i1, i2⟩ := ih (fun l hl => h l (by simp [hl])) hseen
      constructor
      · intro hc
        rcases Out.bind_eq_ub.1 hc with hc | ⟨_, _, hc⟩
        · exact i1 hc
        · simp at hc
      · intro fs seen' h'
        obtain ⟨⟨fs2, s2⟩, h2, h3⟩ := Out.bind_eq_ok.1 h'
        cases h3
        exact i2 fs2 s2 h2

/-- C26: a text whose vertex lines do not have four numbers and whose face lines name existing vertexes is either read
or refused by an exception, whatever else it contains.
Missing from the full property: vertex lines with four numbers, indexes without vertex or below 0 and more than
2^63 vertexes, on which the code has undefined behaviour (or is not followed by the model). -/
theorem C26_defined_partial (rnd : ℚ → ℚ) (t : Text) (h : InRangeObj rnd t) : Obj.read rnd t ≠ .ub := by
  obtain ⟨hv, hN, hf⟩ := h
  unfold Obj.read
  simp only
  split
  · simp
  intro hc
  rcases Out.bind_eq_ub.1 hc with hc | ⟨ps, hps, hc⟩
  · unfold Obj.readPoints at hc
    rcases Out.bind_eq_ub.1 hc with hc | ⟨_, _, hc⟩
    · refine mapM_ne_ub ?_ hc
      intro l hl
      unfold Obj.line2pt Obj.str2pt
      have := hv l hl
      split
      · simp
      · rename_i heq; rw [heq] at this; simp at this
      · simp
    · simp at hc
  · refine mapM_ne_ub ?_ hc
    intro o ho
    have hlen : ps.length = (vertexLines t).length + 1 := by
      unfold Obj.readPoints at hps
      obtain ⟨qs, h1, h2⟩ := Out.bind_eq_ok.1 hps
      cases h2
      have := Out.mapM_length h1
      simp only [List.length_cons, this]
      rfl
    have hlines := object_lines ho
    unfold Obj.readObject
    obtain ⟨r1, r2⟩ := readFacets_ne_ub (rnd := rnd) (N := (vertexLines t).length) hN
      (ls := ((Obj.parse t).drop o.2.1).take o.2.2) (seen := []) (by
        intro l hl q hq
        obtain ⟨h1, h2⟩ := hlines l hl
        exact hf l h1 (by
          intro he
          unfold Obj.isO at h2
          rw [he] at h2
          revert h2; decide) q hq) (by simp)
    intro hc
    rcases Out.bind_eq_ub.1 hc with hc | ⟨⟨fs, seen'⟩, hr, hc⟩
    · exact r1 hc
    · have hs := r2 fs seen' hr
      rcases Out.bind_eq_ub.1 hc with hc | ⟨_, _, hc⟩
      · unfold Obj.select at hc
        refine mapM_ne_ub ?_ hc
        intro i hi
        have := hs i hi
        rw [Out.idx_ok (by omega)]
        simp
      · simp at hc

/-- A text meeting the hypotheses of C26 that is read, and one that is refused (a face with two indexes). -/
example : InRangeObj id "v 5 5 5\no a\nf 0 0 1\n".toList := by
  have e : objContent "v 5 5 5\no a\nf 0 0 1\n".toList =
      [['v', ' ', '5', ' ', '5', ' ', '5'], ['o', ' ', 'a'], ['f', ' ', '0', ' ', '0', ' ', '1']] := by decide
  have s1 : scanDecs id [' ', '5', ' ', '5', ' ', '5'] = [5, 5, 5] := by
    have := scan_list [5, 5, 5] (by decide); simpa [natText, digitChar] using this
  have s2 : scanDecs id [' ', '0', ' ', '0', ' ', '1'] = [0, 0, 1] := by
    have := scan_list [0, 0, 1] (by decide); simpa [natText, digitChar] using this
  have hv : vertexLines "v 5 5 5\no a\nf 0 0 1\n".toList = [['v', ' ', '5', ' ', '5', ' ', '5']] := by
    unfold vertexLines; rw [e]; decide
  have ho : otherLines "v 5 5 5\no a\nf 0 0 1\n".toList = [['o', ' ', 'a'], ['f', ' ', '0', ' ', '0', ' ', '1']] := by
    unfold otherLines; rw [e]; decide
  refine ⟨?_, by rw [hv]; decide, ?_⟩
  · rw [hv]
    intro l hl
    rw [List.mem_singleton] at hl
    subst hl
    rw [List.tail_cons, s1]; decide
  · rw [ho, hv]
    intro l hl hno q hq
    rcases List.mem_cons.1 hl with rfl | hl
    · exact absurd rfl hno
    · rw [List.mem_singleton] at hl
      subst hl
      rw [List.tail_cons, s2] at hq
      simp only [List.mem_cons, List.not_mem_nil, or_false] at hq
      rcases hq with rfl | rfl | rfl <;> norm_num

/-! ### C27 -/

/-- C27 (full statement, false of the code): every list of meshes has a written text. -/
def C27_full : Prop := ∀ ms : List Mesh, (Obj.write ms).Defined

/-- C27 refuted: the empty list cannot be written: undefined behaviour. -/
theorem C27_refuted : ¬ C27_full := by
  intro h
  exact h []

/-- The number printed for index `i` of mesh `m` is the number, counted from 1, of the line of the text that shows the
point of that index: `v`, then its coordinates. -/
def PointsToLine (t : Text) (m : Mesh) (i j : Nat) : Prop :=
  1 ≤ j ∧ ∃ p, m.points[i]? = some p ∧
    (readlines t)[j - 1]? = some ('v' :: ' ' :: (dblText p.x ++ ' ' :: (dblText p.y ++ ' ' :: dblText p.z)))

theorem scanNats_fLine {s : Nat} {is : List Nat} (h : ∀ i ∈ is, i + s + 1 < 2 ^ 64) :
    scanNats (is.flatMap fun i => natText (i + s + 1) ++ [' ']) = is.map fun i => i + s + 1 := by
  induction is with
  | nil => simp [scanNats_nil]
  | cons i is ih =>
    have hi := h i (by simp)
    rw [List.flatMap_cons, List.append_assoc, List.singleton_append, scanNats_natText hi (stop_space (by decide)),
      List.map_cons]
    congr 1
    rw [scanNats_space (by decide), ih fun j hj => h j (by simp [hj])]

/-- C27: for every non empty list of meshes with valid faces and names without line break, each mesh has in the text a
block: an empty line, `o` and its name, one line per face in order. The face line is `f` followed by the numbers of the lines
showing the points of the face, in order.
Missing from the full property: the empty list. -/
theorem C27_indexes_partial (ms : List Mesh) (hne : ms ≠ []) (hv : ∀ m ∈ ms, Valid m) (hn : ∀ m ∈ ms, '\n' ∉ m.name)
    (hs : (ms.flatMap (·.points)).length < 2 ^ 64) :
    ∃ t, Obj.write ms = .ok t ∧ ∀ m ∈ ms, ∃ pre lines post,
      readlines t = pre ++ [] :: ('o' :: ' ' :: m.name) :: lines ++ post ∧
      List.Forall₂ (fun (f : Face) (l : Text) => ∃ js, l.head? = some 'f' ∧ scanNats l.tail = js ∧
        List.Forall₂ (PointsToLine t m) f.points js) m.faces lines := by
  refine ⟨_, by unfold Obj.write; rw [if_neg hne], ?_⟩
  have hno : ∀ l ∈ Obj.writeLines ms, '\n' ∉ l := by
    intro l hl
    unfold Obj.writeLines at hl
    rcases List.mem_append.1 hl with hl | hl
    · obtain ⟨m, -, hl⟩ := List.mem_flatMap.1 hl
      obtain ⟨p, -, rfl⟩ := List.mem_map.1 hl
      exact Obj.vLine_ok p
    · obtain ⟨⟨m, s⟩, hm, hl⟩ := List.mem_flatMap.1 hl
      have hm' := List.of_mem_zip hm
      unfold Obj.objLines at hl
      rcases List.mem_cons.1 hl with rfl | hl
      · simp
      rcases List.mem_cons.1 hl with rfl | hl
      · have := hn m hm'.1
        simp only [List.mem_cons, not_or]
        exact ⟨by decide, by decide, this⟩
      · obtain ⟨f, -, rfl⟩ := List.mem_map.1 hl
        exact Obj.fLine_ok _ f
  have hread : readlines ((Obj.writeLines ms).flatMap (· ++ ['\n'])) = Obj.writeLines ms := readlines_unlines hno
  intro m hm
  have hoff : ∃ s, (m, s) ∈ Obj.offs 0 ms := by
    rw [← Obj.offs_fst 0 ms] at hm
    obtain ⟨p, hp, rfl⟩ := List.mem_map.1 hm
    exact ⟨p.2, hp⟩
  obtain ⟨s, hms⟩ := hoff
  obtain ⟨l1, l2, hsplit⟩ := List.append_of_mem hms
  have hget := Obj.offs_getElem (ms := ms) (pre := []) hms
  simp only [List.nil_append] at hget
  refine ⟨(ms.flatMap fun m => m.points.map Obj.vLine) ++ l1.flatMap (fun p => Obj.objLines p.1 p.2),
    m.faces.map (Obj.fLine s), l2.flatMap (fun p => Obj.objLines p.1 p.2), ?_, ?_⟩
  · rw [hread]
    unfold Obj.writeLines
    rw [Obj.zip_shifts, hsplit]
    simp [Obj.objLines]
  · rw [List.forall₂_map_right_iff]
    apply List.forall₂_same.2
    intro f hf
    have hlt : ∀ i ∈ f.points, s + i < (ms.flatMap (·.points)).length := by
      intro i hi
      have h1 := hv m hm f hf i hi
      have h2 := hget i h1
      rw [List.getElem?_eq_getElem h1] at h2
      exact (List.getElem?_eq_some_iff.1 h2).1
    refine ⟨f.points.map fun i => i + s + 1, rfl, ?_, ?_⟩
    · unfold Obj.fLine
      rw [List.tail_cons, scanNats_space (by decide), scanNats_fLine]
      intro i hi
      have := hlt i hi
      omega
    · rw [List.forall₂_map_right_iff]
      apply List.forall₂_same.2
      intro i hi
      have h1 := hv m hm f hf i hi
      refine ⟨by omega, m.points[i], List.getElem?_eq_getElem h1, ?_⟩
      rw [hread]
      unfold Obj.writeLines
      have e : i + s + 1 - 1 = s + i := by omega
      have hmap : (ms.flatMap fun m => m.points.map Obj.vLine) = (ms.flatMap (·.points)).map Obj.vLine := by
        rw [List.map_flatMap]
      rw [e, hmap, List.getElem?_append_left (by simpa using hlt i hi), List.getElem?_map, hget i h1,
        List.getElem?_eq_getElem h1, Option.map_some]
      rfl

end City.Props
