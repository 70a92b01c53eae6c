import Verif.Lemmas.Fan3ds
import Verif.Model.Bbox
import Mathlib.Tactic.FinCases
/-!
Properties C09 (`is_convex`) and C10 (`to_3ds` of one face).
-/
set_option linter.unusedSectionVars false
namespace City.Props
open City Spec V3

section
variable {K : Type} [Field K] [LinearOrder K] [IsStrictOrderedRing K]

/-- C09 (full statement, false of the code: see `C09_refuted`). -/
def C09_full : Prop :=
  ∀ (f : Face) (co vs : List (V3 ℚ)), Resolves f co vs → f.degree ≤ co.length → 3 ≤ f.degree →
    (∃ N, PlanarWith N vs) → (Face.isConvex f co = .ok true ↔ StrictlyConvex vs)

/-- C09: every strictly convex planar polygon (of any degree, in any plane, in either orientation) is accepted. -/
theorem C09_accepts_convex (f : Face) (co vs : List (V3 K)) (hr : Resolves f co vs)
    (hco : f.degree ≤ co.length) (h3 : 3 ≤ f.degree) (hc : StrictlyConvex vs) :
    Face.isConvex f co = .ok true := by
  have hl := hr.length
  unfold Face.degree at *
  by_cases h : 3 < f.points.length
  · obtain ⟨N, hN, hleft⟩ := hc
    refine (isConvex_iff_local hr hco h ⟨N, hN⟩).2 ⟨N, hN, fun i => hleft i (i + 2) ?_ ?_⟩
    · rw [← hl]
      intro hh
      have hm : i % f.points.length < f.points.length := Nat.mod_lt _ (by omega)
      have := (Nat.ModEq.add_left_cancel' i (show i + 2 ≡ i + 0 [MOD f.points.length] from hh))
      rw [Nat.ModEq, Nat.mod_eq_of_lt (by omega), Nat.zero_mod] at this
      omega
    · rw [← hl]
      intro hh
      have := (Nat.ModEq.add_left_cancel' i (show i + 2 ≡ i + 1 [MOD f.points.length] from hh))
      rw [Nat.ModEq, Nat.mod_eq_of_lt (by omega), Nat.mod_eq_of_lt (by omega)] at this
      omega
  · unfold Face.isConvex
    simp only
    rw [if_neg (by omega), if_neg (by omega), if_neg h]

/-- C09: on planar polygons of degree at least four, `is_convex` answers exactly whether the polygon turns strictly to
the same side at every vertex. Missing from the full property: polygons winding several times around. -/
theorem C09_decides_turning_partial (f : Face) (co vs : List (V3 K)) (hr : Resolves f co vs)
    (hco : f.degree ≤ co.length) (h3 : 3 < f.degree) (hpl : ∃ N, PlanarWith N vs) :
    (Face.isConvex f co = .ok true ↔ LocallyConvex vs) ∧
    (Face.isConvex f co = .ok false ↔ ¬ LocallyConvex vs) := by
  have key := isConvex_iff_local hr hco h3 hpl
  refine ⟨key, ?_⟩
  rw [← key, isConvex_eq hr hco h3]
  cases decide (∀ i < vs.length, codeTurn vs i < 0) <;> simp

/-- C09: on planar quadrilaterals `is_convex` decides strict convexity exactly. -/
theorem C09_quad_exact (f : Face) (co vs : List (V3 K)) (hr : Resolves f co vs)
    (hco : f.degree ≤ co.length) (h4 : f.degree = 4) (hpl : ∃ N, PlanarWith N vs) :
    Face.isConvex f co = .ok true ↔ StrictlyConvex vs := by
  constructor
  · intro h
    have hl : vs.length = 4 := by rw [← hr.length]; exact h4
    obtain ⟨N, hN, hleft⟩ := (isConvex_iff_local hr hco (by unfold Face.degree at h4; omega) hpl).1 h
    refine ⟨N, hN, fun i j h1 h2 => ?_⟩
    rw [hl] at h1 h2
    -- j is i+2 or i+3 modulo 4
    by_cases hj : j % 4 = (i + 2) % 4
    · rw [cyc_congr vs (i := j) (j := i + 2) (by rw [hl]; exact hj)]
      exact hleft i
    · have hj3 : j % 4 = (i + 3) % 4 := by omega
      rw [cyc_congr vs (i := j) (j := i + 3) (by rw [hl]; exact hj3)]
      have := hleft (i + 3)
      rw [cyc_congr vs (i := i + 3 + 1) (j := i) (by rw [hl]; omega),
        cyc_congr vs (i := i + 3 + 2) (j := i + 1) (by rw [hl]; omega)] at this
      unfold Left at this ⊢
      have e : dot N (cross (sub (cyc vs (i + 1)) (cyc vs i)) (sub (cyc vs (i + 3)) (cyc vs i)))
          = dot N (cross (sub (cyc vs i) (cyc vs (i + 3))) (sub (cyc vs (i + 1)) (cyc vs (i + 3)))) := by
        simp only [dot, cross, sub]; ring
      rw [e]; exact this
  · exact C09_accepts_convex f co vs hr hco (by omega)

/-- C09: triangles are always accepted, without looking at the coordinates. -/
theorem C09_triangle (f : Face) (co : List (V3 K)) (h : f.degree = 3) (hco : 3 ≤ co.length) :
    Face.isConvex f co = .ok true := by
  unfold Face.isConvex Face.degree at *
  simp only
  rw [if_neg (by omega), if_neg (by omega), if_neg (by omega)]

/-- C09: the answer for a planar face does not depend on the starting vertex. -/
theorem C09_rotation_invariant (f : Face) (co vs : List (V3 K)) (n : Nat) (hr : Resolves f co vs)
    (hco : f.degree ≤ co.length) (hpl : ∃ N, PlanarWith N vs) :
    Face.isConvex ⟨f.points.rotate n⟩ co = Face.isConvex f co := by
  unfold Face.degree at hco
  by_cases h3 : 3 < f.points.length
  · have hl := hr.length
    have hne : vs ≠ [] := by rintro rfl; simp at hl; simp [hl] at h3
    have hr' : Resolves (⟨f.points.rotate n⟩ : Face) co (vs.rotate n) := by
      show List.Forall₂ _ (f.points.rotate n) (vs.rotate n)
      rw [List.rotate_eq_drop_append_take_mod, List.rotate_eq_drop_append_take_mod, ← hl]
      refine List.rel_append ?_ ?_
      · exact List.forall₂_drop _ hr
      · exact List.forall₂_take _ hr
    have k1 := isConvex_iff_local hr hco h3 hpl
    have k2 := isConvex_iff_local hr' (by simpa using hco) (by simpa using h3)
      (hpl.imp fun N hN => hN.perm (by simp))
    rw [LocallyConvex.rotate_iff hne, ← k1] at k2
    have e1 := isConvex_eq hr hco h3
    have e2 := isConvex_eq hr' (by simpa using hco) (by simpa using h3)
    rw [e1, e2] at k2 ⊢
    congr 1
    simpa using k2
  · unfold Face.isConvex
    simp only [List.length_rotate]
    split_ifs <;> rfl

/-- C09: nor on the orientation: inverting the face gives the same answer. -/
theorem C09_inversion_invariant (f g : Face) (co vs : List (V3 K)) (hr : Resolves f co vs)
    (hco : f.degree ≤ co.length) (hpl : ∃ N, PlanarWith N vs) (hg : Face.invert f = .ok g) :
    Face.isConvex g co = Face.isConvex f co := by
  unfold Face.degree at hco
  obtain ⟨p⟩ := f
  unfold Face.invert at hg
  split at hg
  · cases hg
  rename_i a t ht
  cases hg
  simp only at ht
  subst ht
  by_cases h3 : 3 < (a :: t).length
  · cases hr with
    | cons ha hrt =>
      rename_i v ws
      have hl := List.Forall₂.length_eq hrt
      have hr' : Resolves (⟨a :: t.reverse⟩ : Face) co (v :: ws.reverse) :=
        List.Forall₂.cons ha (List.rel_reverse hrt)
      have hr0 : Resolves (⟨a :: t⟩ : Face) co (v :: ws) := List.Forall₂.cons ha hrt
      have hrev : v :: ws.reverse = ((v :: ws).rotate 1).reverse := by simp
      have loc : LocallyConvex (v :: ws.reverse) ↔ LocallyConvex (v :: ws) := by
        rw [hrev]
        constructor
        · intro h
          have := h.reverse (by simp)
          rw [List.reverse_reverse] at this
          exact (LocallyConvex.rotate_iff (by simp) 1).1 this
        · intro h
          exact ((LocallyConvex.rotate_iff (by simp) 1).2 h).reverse (by simp)
      have k1 := isConvex_iff_local hr0 hco h3 hpl
      have k2 := isConvex_iff_local hr' (by simpa using hco) (by simpa using h3)
        (hpl.imp fun N hN => hN.perm (by simp))
      rw [loc, ← k1] at k2
      have e1 := isConvex_eq hr0 hco h3
      have e2 := isConvex_eq hr' (by simpa using hco) (by simpa using h3)
      rw [e1, e2] at k2 ⊢
      congr 1
      simpa using k2
  · unfold Face.isConvex
    simp only [List.length_cons, List.length_reverse] at h3 hco ⊢
    split_ifs <;> rfl

/-- C09: nor on a translation of all the coordinates (planar or not). -/
theorem C09_translation_invariant (f : Face) (co : List (V3 K)) (u : V3 K) :
    Face.isConvex f (co.map fun p => add p u) = Face.isConvex f co := by
  have hat : ∀ i, Out.atOr (co.map fun p => add p u) i = (fun p => add p u) <$> Out.atOr co i := by
    intro i
    unfold Out.atOr
    rw [List.getElem?_map]
    cases co[i]? <;> rfl
  have hv : ∀ a b : V3 K, vec (add a u) (add b u) = vec a b := by
    intro a b; ext <;> simp only [vec, add] <;> ring
  have bm : ∀ {α β γ : Type} (x : Out α) (g : α → β) (k : β → Out γ),
      ((g <$> x) >>= k) = (x >>= fun a => k (g a)) := by
    intro α β γ x g k; cases x <;> rfl
  have loop : ∀ n ts, Face.convexLoop (co.map fun p => add p u) n ts = Face.convexLoop co n ts := by
    intro n ts
    induction ts with
    | nil => rfl
    | cons t ts ih =>
      simp only [Face.convexLoop, ih]
      congr 1
      unfold Face.turnOk
      simp only [hat, bm, hv]
  unfold Face.isConvex
  simp only [List.length_map, hat, bm, hv, loop]

/-- C09: errors. `is_convex` never has undefined behaviour; it throws `out_of_range` when the coordinate list is
shorter than the face or the degree is below three; with enough coordinates, valid indexes never throw. -/
theorem C09_errors (f : Face) (co : List (V3 K)) :
    Face.isConvex f co ≠ .ub ∧
    (co.length < f.degree ∨ f.degree < 3 → Face.isConvex f co = .thrown .outOfRange) ∧
    (f.degree ≤ co.length → 3 ≤ f.degree → (∀ i ∈ f.points, i < co.length) →
      ∃ b, Face.isConvex f co = .ok b) := by
  refine ⟨isConvex_defined f co, ?_, ?_⟩
  · intro h
    unfold Face.isConvex Face.degree at *
    simp only
    rcases h with h | h
    · rw [if_pos h]
    · by_cases h' : co.length < f.points.length
      · rw [if_pos h']
      · rw [if_neg h', if_pos h]
  · intro hco h3 hval
    unfold Face.degree at *
    by_cases h : 3 < f.points.length
    · have hr : Resolves f co (f.points.map (pt co)) := by
        show List.Forall₂ _ _ _
        rw [List.forall₂_map_right_iff, List.forall₂_same]
        intro i hi
        simp [pt, hval i hi]
      exact ⟨_, isConvex_eq hr hco h⟩
    · exact ⟨true, C09_triangle f co (by unfold Face.degree; omega) (by omega)⟩

end

/-- The pentagram with integer vertices: it turns to the left at each vertex, but crosses itself. -/
def pentagram : List (V3 ℚ) := [⟨3, 0, 0⟩, ⟨-2, 2, 0⟩, ⟨1, -3, 0⟩, ⟨1, 3, 0⟩, ⟨-2, -2, 0⟩]

/-- C09 refuted: `is_convex` accepts the pentagram. -/
theorem C09_refuted : Face.isConvex ⟨[0, 1, 2, 3, 4]⟩ pentagram = .ok true ∧
    ¬ StrictlyConvex pentagram ∧ ¬ C09_full := by
  have h1 : Face.isConvex ⟨[0, 1, 2, 3, 4]⟩ pentagram = .ok true := by decide +kernel
  have hpl : PlanarWith (⟨0, 0, 1⟩ : V3 ℚ) pentagram := by
    refine ⟨by decide, ?_⟩
    have : ∀ v ∈ pentagram, v.z = 0 := by decide
    intro v hv w hw
    simp [dot, sub, this v hv, this w hw]
  have h2 : ¬ StrictlyConvex pentagram := by
    rintro ⟨N, -, h⟩
    have ha := h 0 2 (by decide) (by decide)
    have hb := h 0 3 (by decide) (by decide)
    unfold Left at ha hb
    have c0 : cyc pentagram 0 = ⟨3, 0, 0⟩ := rfl
    have c1 : cyc pentagram (0 + 1) = ⟨-2, 2, 0⟩ := rfl
    have c2 : cyc pentagram 2 = ⟨1, -3, 0⟩ := rfl
    have c3 : cyc pentagram 3 = ⟨1, 3, 0⟩ := rfl
    rw [c0, c1, c2] at ha
    rw [c0, c1, c3] at hb
    simp only [dot, cross, sub] at ha hb
    linarith
  refine ⟨h1, h2, fun hf => h2 ?_⟩
  have hr : Resolves ⟨[0, 1, 2, 3, 4]⟩ pentagram pentagram := by
    simp [Resolves, pentagram]
  exact (hf _ _ _ hr (by decide) (by decide) ⟨_, hpl⟩).1 h1

/-- The hypotheses of the C09 theorems are met by the unit square. -/
def square : List (V3 ℚ) := [⟨0, 0, 0⟩, ⟨1, 0, 0⟩, ⟨1, 1, 0⟩, ⟨0, 1, 0⟩]

example : Resolves ⟨[0, 1, 2, 3]⟩ square square ∧ StrictlyConvex square := by
  refine ⟨by simp [Resolves, square], ?_⟩
  have hpl : PlanarWith (⟨0, 0, 1⟩ : V3 ℚ) square := by
    refine ⟨by decide, ?_⟩
    have : ∀ v ∈ square, v.z = 0 := by decide
    intro v hv w hw
    simp [dot, sub, this v hv, this w hw]
  exact (C09_quad_exact ⟨[0, 1, 2, 3]⟩ square square (by simp [Resolves, square]) (by decide) rfl
    ⟨_, hpl⟩).1 (by decide +kernel)

/-! ### C10 -/

/-- C10: exactly `degree - 2` triangles are returned, and triangle `k` is made of the first vertex and of the
vertices `k+1` and `k+2` (indexes below 65536; see C17 for the others). -/
theorem C10_fan (f : Face) (co : List (V3 ℝ)) (ts : List Face3ds) (h : Face.to3ds f co = .ok ts)
    (h16 : ∀ i ∈ f.points, i < 65536) :
    ts.length + 2 = f.degree ∧
    ∀ k (hk : k < ts.length),
      tri ts[k] = [f.points.getD 0 0, f.points.getD (k + 1) 0, f.points.getD (k + 2) 0] := by
  obtain ⟨a, b, c, t, hf, htri⟩ := tri_eq_fan h h16
  have hlen : ts.length = t.length + 1 := by
    have := congrArg List.length htri
    simpa [fan] using this
  refine ⟨by rw [hlen]; simp [Face.degree, hf], fun k hk => ?_⟩
  have e : tri ts[k] = (ts.map tri)[k]'(by simpa using hk) := by simp
  rw [e]
  simp only [htri, hf]
  have hk' : k < t.length + 1 := by omega
  simp only [fan, List.getElem_map, List.getElem_zip, List.tail_cons]
  rw [List.getD_eq_getElem _ _ (by simp), List.getD_eq_getElem _ _ (by simp; omega),
    List.getD_eq_getElem _ _ (by simp; omega)]
  simp

/-- C10: edges. Taken together, the triangles traverse each boundary edge of the face exactly as often as the face
does, and every other edge occurs equally often in both directions. -/
theorem C10_edges (f : Face) (co : List (V3 ℝ)) (ts : List Face3ds) (h : Face.to3ds f co = .ok ts)
    (h16 : ∀ i ∈ f.points, i < 65536) :
    ∃ inner : List (Nat × Nat), inner.length + 3 = f.degree ∧
      ((ts.map tri).flatMap boundary).Perm (boundary f.points ++ (inner ++ inner.map Prod.swap)) := by
  obtain ⟨a, b, c, t, hf, htri⟩ := tri_eq_fan h h16
  refine ⟨spokes a (b :: c :: t), ?_, ?_⟩
  · simp [spokes, Face.degree, hf]
  · rw [htri, hf]; exact fan_edges a b c t

/-- C10: area. The vector areas of the triangles add up to the vector area of the face. -/
theorem C10_area (f : Face) (co : List (V3 ℝ)) (ts : List Face3ds) (h : Face.to3ds f co = .ok ts)
    (h16 : ∀ i ∈ f.points, i < 65536) :
    vsum (ts.map fun t => vectorArea2 ((tri t).map (pt co))) = vectorArea2 (f.points.map (pt co)) := by
  obtain ⟨a, b, c, t, hf, htri⟩ := tri_eq_fan h h16
  have : ts.map (fun t => vectorArea2 ((tri t).map (pt co)))
      = (fan (pt co a) (pt co b :: pt co c :: t.map (pt co))).map vectorArea2 := by
    have e : ts.map (fun t => vectorArea2 ((tri t).map (pt co)))
        = (ts.map tri).map fun l => vectorArea2 (l.map (pt co)) := by simp [Function.comp_def]
    rw [e, htri]
    have e2 : (pt co b :: pt co c :: t.map (pt co)).zip (pt co c :: t.map (pt co))
        = ((b :: c :: t).zip (c :: t)).map (Prod.map (pt co) (pt co)) := by
      rw [← List.zip_map]; rfl
    simp only [fan, List.tail_cons, e2, List.map_map]
    rfl
  rw [this, hf]
  classical
  exact fan_area _ _ _ _

/-- C10: for a strictly convex face all triangles are turned to the same side, so with `C10_area` they tile the face
without overlap. -/
theorem C10_orientation (f : Face) (co : List (V3 ℝ)) (ts : List Face3ds) (h : Face.to3ds f co = .ok ts)
    (h16 : ∀ i ∈ f.points, i < 65536) (hc : StrictlyConvex (f.points.map (pt co))) :
    ∃ N, PlanarWith N (f.points.map (pt co)) ∧
      ∀ t ∈ ts, Left N (pt co t.a) (pt co t.b) (pt co t.c) := by
  obtain ⟨N, hN, hleft⟩ := hc
  refine ⟨N, hN, fun t ht => ?_⟩
  obtain ⟨k, hk, rfl⟩ := List.getElem_of_mem ht
  obtain ⟨hlen, hk3⟩ := C10_fan f co ts h h16
  unfold Face.degree at hlen
  have := hk3 k hk
  simp only [tri, List.cons.injEq, and_true] at this
  obtain ⟨e1, e2, e3⟩ := this
  have hcyc : ∀ i, i < f.points.length → cyc (f.points.map (pt co)) i = pt co (f.points.getD i 0) := by
    intro i hi
    unfold cyc
    rw [List.length_map, Nat.mod_eq_of_lt hi, List.getD_eq_getElem _ _ (by simpa using hi),
      List.getD_eq_getElem _ _ hi, List.getElem_map]
  rw [e1, e2, e3, ← hcyc 0 (by omega), ← hcyc (k + 1) (by omega), ← hcyc (k + 2) (by omega)]
  have hl := hleft (k + 1) 0
    (by rw [List.length_map, Nat.zero_mod, Nat.mod_eq_of_lt (by omega)]; omega)
    (by rw [List.length_map, Nat.zero_mod, Nat.mod_eq_of_lt (by omega)]; omega)
  unfold Left at hl ⊢
  generalize cyc (f.points.map (pt co)) 0 = A at *
  generalize cyc (f.points.map (pt co)) (k + 1) = B at *
  rw [show k + 1 + 1 = k + 2 from rfl] at hl
  generalize cyc (f.points.map (pt co)) (k + 2) = C at *
  have e : dot N (cross (sub B A) (sub C A)) = dot N (cross (sub C B) (sub A B)) := by
    simp only [dot, cross, sub]; ring
  rw [e]; exact hl

/-- C10: errors. With valid indexes and enough coordinates, a face of degree at least three is converted when
`is_convex` accepts it and refused with `logic_error` when it does not; too few coordinates or a degree
below three give `out_of_range`. Never undefined behaviour. -/
theorem C10_errors (f : Face) (co : List (V3 ℝ)) :
    Face.to3ds f co ≠ .ub ∧
    (co.length < f.degree ∨ f.degree < 3 → Face.to3ds f co = .thrown .outOfRange) ∧
    (f.degree ≤ co.length → Face.isConvex f co = .ok false → Face.to3ds f co = .thrown .logicError) ∧
    (f.degree ≤ co.length → (∀ i ∈ f.points, i < co.length) → Face.isConvex f co = .ok true →
      ∃ ts, Face.to3ds f co = .ok ts) := by
  have fan_def : ∀ p l, Out.mapM (Face.fanTriangle co p) l ≠ .ub := by
    intro p l
    induction l with
    | nil => simp
    | cons e l ih =>
      rw [Out.mapM_cons]
      intro h
      rcases Out.bind_eq_ub.1 h with h | ⟨b, -, h⟩
      · unfold Face.fanTriangle at h
        simp only [Out.bind_eq_ub, Out.atOr_ne_ub, false_or, reduceCtorEq, and_false, exists_false] at h
      · rcases Out.bind_eq_ub.1 h with h | ⟨b, -, h⟩
        · exact ih h
        · cases h
  refine ⟨?_, ?_, ?_, ?_⟩
  · unfold Face.to3ds
    split
    · simp
    · intro h
      rcases Out.bind_eq_ub.1 h with h | ⟨b, -, h⟩
      · exact isConvex_defined f co h
      · cases b
        · simp at h
        · simp only [if_true] at h
          cases hf : f.points with
          | nil => simp [hf] at h
          | cons p t => rw [hf] at h; exact fan_def _ _ h
  · intro h
    unfold Face.to3ds
    split
    · rfl
    · rename_i hco
      have h3 : f.degree < 3 := h.resolve_left hco
      rw [(C09_errors f co).2.1 (Or.inr h3)]; rfl
  · intro hco hc
    unfold Face.to3ds Face.degree at *
    rw [if_neg (by omega), hc]; rfl
  · intro hco hval hc
    unfold Face.to3ds Face.degree at *
    rw [if_neg (by omega), hc, Out.ok_bind]
    simp only [if_true]
    cases hf : f.points with
    | nil => exact ⟨[], rfl⟩
    | cons p t =>
      rw [hf] at hval
      refine ⟨_, Out.mapM_ok_of (g := fun e => ⟨word p, word e.1, word e.2,
        normalTo (pt co p) (pt co e.1) (pt co e.2)⟩) ?_⟩
      intro e he
      have m1 := hval e.1 (by simp [(List.of_mem_zip he).1])
      have m2 := hval e.2 (by simp [List.mem_of_mem_tail (List.of_mem_zip he).2])
      have m0 := hval p (by simp)
      unfold Face.fanTriangle
      rw [Out.atOr_ok m0, Out.ok_bind, Out.atOr_ok m1, Out.ok_bind, Out.atOr_ok m2, Out.ok_bind]
      simp [pt, m0, m1, m2]

/-- The hypotheses of the C10 theorems are met: a square is converted to two triangles. -/
example : ∃ ts, Face.to3ds ⟨[0, 1, 2, 3]⟩ ([⟨0, 0, 0⟩, ⟨1, 0, 0⟩, ⟨1, 1, 0⟩, ⟨0, 1, 0⟩] : List (V3 ℝ)) = .ok ts := by
  refine (C10_errors _ _).2.2.2 (by simp [Face.degree]) (by simp) ?_
  rw [isConvex_eq (vs := [⟨0, 0, 0⟩, ⟨1, 0, 0⟩, ⟨1, 1, 0⟩, ⟨0, 1, 0⟩]) (by simp [Resolves]) (by simp) (by simp)]
  congr 1
  rw [decide_eq_true_iff]
  intro i hi
  simp only [List.length_cons, List.length_nil] at hi
  have : i = 0 ∨ i = 1 ∨ i = 2 ∨ i = 3 := by omega
  rcases this with rfl | rfl | rfl | rfl <;> simp [codeTurn, cyc, dot, cross, vec]

end City.Props
