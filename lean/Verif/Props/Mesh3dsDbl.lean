import Verif.Model.Mesh3dsDbl
import Verif.Lemmas.Float32
import Verif.Lemmas.Approx
import Verif.Props.ConvexDbl
import Verif.Props.NormalDbl
import Verif.Props.Mesh3ds
/-!
C91: the 3DS round trip of a mesh with doubles as coordinates and floats in the file structures.
-/
set_option linter.unusedSectionVars false
set_option exponentiation.threshold 2000
namespace City.Props
open City City.Spec V3

/-- The requirements of the 3DS format on a mesh. -/
def Fits3dsD (m : DMesh) : Prop := (cName m.name).length < 63 ∧ m.points.length < 65536

/-- All indexes valid, all faces of degree at least three and not larger than the number of points. -/
def ValidD (m : DMesh) : Prop :=
  ∀ f ∈ m.faces, 3 ≤ f.degree ∧ f.degree ≤ m.points.length ∧ ∀ i ∈ f.points, i < m.points.length

/-- Every face is accepted by `is_convex`. -/
def AllConvexD (o : SumOrder) (m : DMesh) : Prop := ∀ f ∈ m.faces, Face.isConvexD o f m.points = .ok true

/-- The point of an index. -/
def ptD (co : List (V3 Dbl)) (i : Nat) : V3 Dbl := co.getD i ⟨.fin 0, .fin 0, .fin 0⟩

/-- The test made on reading: the determinant of the sides of the rounded triangle and of its rounded normal is above the machine epsilon. -/
noncomputable def keptD (o : SumOrder) (p q r : V3 Dbl) : Bool :=
  (Dbl.fin (2 ^ (-52 : ℤ))).lt (determinantD (subD q.toFloat p.toFloat) (subD r.toFloat q.toFloat) (normalToD o p q r).toFloat)

/-- What a face becomes: the triangle of its first three vertices, as it was or turned over. -/
noncomputable def storedD (o : SumOrder) (co : List (V3 Dbl)) (f : Face) : Face :=
  Face.ofTriple (f.points.getD 0 0) (f.points.getD 1 0) (f.points.getD 2 0)
    (keptD o (ptD co (f.points.getD 0 0)) (ptD co (f.points.getD 1 0)) (ptD co (f.points.getD 2 0)))

/-! ### Shape -/

theorem fanTriangleD_ok {o : SumOrder} {co : List (V3 Dbl)} {a : Nat} {e : Nat × Nat} (h0 : a < co.length) (h1 : e.1 < co.length) (h2 : e.2 < co.length) :
    Face.fanTriangleD o co a e = .ok ⟨word a, word e.1, word e.2, (normalToD o (ptD co a) (ptD co e.1) (ptD co e.2)).toFloat⟩ := by
  have A : ∀ {i}, i < co.length → Out.atOr co i = .ok (ptD co i) := by
    intro i hi
    rw [Out.atOr_eq_ok]
    simp [ptD, hi]
  unfold Face.fanTriangleD
  rw [A h0, Out.ok_bind, A h1, Out.ok_bind, A h2, Out.ok_bind]

theorem to3dsD_ok {o : SumOrder} {f : Face} {co : List (V3 Dbl)} (h3 : 3 ≤ f.degree) (hd : f.degree ≤ co.length) (hv : ∀ i ∈ f.points, i < co.length)
    (hc : Face.isConvexD o f co = .ok true) :
    ∃ ts, Face.to3dsD o f co = .ok (⟨word (f.points.getD 0 0), word (f.points.getD 1 0), word (f.points.getD 2 0),
      (normalToD o (ptD co (f.points.getD 0 0)) (ptD co (f.points.getD 1 0)) (ptD co (f.points.getD 2 0))).toFloat⟩ :: ts) := by
  obtain ⟨p⟩ := f
  unfold Face.degree at h3 hd
  match p, h3 with
  | a :: b :: c :: t, _ =>
    have ha := hv a (by simp)
    have hrest : ∃ ts, Out.mapM (Face.fanTriangleD o co a) ((c :: t).zip t) = .ok ts := by
      refine ⟨_, Out.mapM_ok_of (g := fun e => (⟨word a, word e.1, word e.2, (normalToD o (ptD co a) (ptD co e.1) (ptD co e.2)).toFloat⟩ : Face3dsF)) ?_⟩
      intro e he
      have := List.of_mem_zip he
      exact fanTriangleD_ok ha (hv _ (by simp only [List.mem_cons] at this ⊢; tauto)) (hv _ (by simp only [List.mem_cons] at this ⊢; tauto))
    obtain ⟨ts, hts⟩ := hrest
    refine ⟨ts, ?_⟩
    unfold Face.to3dsD
    rw [if_neg (by exact not_lt.2 hd), hc, Out.ok_bind, if_pos rfl]
    dsimp only [List.tail, List.zip_cons_cons]
    rw [Out.mapM_cons, fanTriangleD_ok ha (hv b (by simp)) (hv c (by simp)), Out.ok_bind, hts]
    rfl

theorem fillD_ok (o : SumOrder) (co : List (V3 Dbl)) (hlen : co.length < 65536) (slots : Int) :
    ∀ (fs : List Face) (k : Nat), (k : Int) + fs.length ≤ slots →
      (∀ f ∈ fs, 3 ≤ f.degree ∧ f.degree ≤ co.length ∧ (∀ i ∈ f.points, i < co.length) ∧ Face.isConvexD o f co = .ok true) →
      fillSlotsD o co slots k fs = .ok (fs.map fun f => ⟨f.points.getD 0 0, f.points.getD 1 0, f.points.getD 2 0,
        (normalToD o (ptD co (f.points.getD 0 0)) (ptD co (f.points.getD 1 0)) (ptD co (f.points.getD 2 0))).toFloat⟩) := by
  intro fs
  induction fs with
  | nil => intro k _ _; rfl
  | cons f fs ih =>
    intro k hk h
    obtain ⟨h3, hd, hv, hc⟩ := h f (by simp)
    obtain ⟨ts, hts⟩ := to3dsD_ok h3 hd hv hc
    have hw : ∀ j < 3, word (f.points.getD j 0) = f.points.getD j 0 := by
      intro j hj
      unfold Face.degree at h3
      refine Nat.mod_eq_of_lt (lt_trans (hv _ ?_) hlen)
      rw [List.getD_eq_getElem _ _ (by omega)]
      exact List.getElem_mem _
    rw [hw 0 (by norm_num), hw 1 (by norm_num), hw 2 (by norm_num)] at hts
    simp only [List.length_cons] at hk
    rw [fillSlotsD, hts, Out.ok_bind, Out.idx_ok (by simp), Out.ok_bind, if_pos (by omega), ih (k + 1) (by push_cast; omega) (fun f hf => h f (by simp [hf])), Out.ok_bind]
    rfl

theorem slots_count (fs : List Face) (hv : ∀ f ∈ fs, 3 ≤ f.degree) : faceSlots fs = ((fs.map fun f => f.degree - 3).sum + fs.length : Nat) := by
  induction fs with
  | nil => rfl
  | cons f fs ih =>
    have h3 := hv f (by simp)
    unfold Face.degree at h3
    rw [faceSlots_cons, ih fun f hf => hv f (by simp [hf])]
    simp only [List.map_cons, List.sum_cons, List.length_cons, Face.degree]
    push_cast
    omega

/-- C91: the result of the round trip of any mesh that fits the format, with any doubles as coordinates (infinities and NaN included): the points rounded to floats, each face reduced to
its first three vertices, as they were or turned over, and a face (0,0,0) for each triangle that was not stored. -/
theorem C91_shape (o : SumOrder) (m : DMesh) (hfit : Fits3dsD m) (hv : ValidD m) (hc : AllConvexD o m) :
    ∃ d, m.to3ds o = .ok d ∧ DMesh.of3ds d = .ok ⟨cName m.name, m.points.map V3.toFloat,
      m.faces.map (storedD o m.points) ++ List.replicate ((m.faces.map fun f => f.degree - 3).sum) ⟨[0, 0, 0]⟩⟩ := by
  have hfill := fillD_ok o m.points hfit.2 (faceSlots m.faces) m.faces 0 (by have := faceSlots_ge m.faces fun f hf => (hv f hf).1; simpa using this)
    (fun f hf => ⟨(hv f hf).1, (hv f hf).2.1, (hv f hf).2.2, hc f hf⟩)
  refine ⟨_, by unfold DMesh.to3ds; rw [if_neg (by have := hfit.1; omega), if_neg (by have := hfit.2; omega), hfill, Out.ok_bind], ?_⟩
  have hcount : (faceSlots m.faces).toNat - m.faces.length = (m.faces.map fun f => f.degree - 3).sum := by
    rw [slots_count m.faces fun f hf => (hv f hf).1, Int.toNat_natCast]; omega
  have I : ∀ {i}, i < m.points.length → Out.idx (m.points.map V3.toFloat) i = .ok (ptD m.points i).toFloat := by
    intro i hi
    rw [Out.idx_ok (by simpa using hi)]
    simp [ptD, hi]
  unfold DMesh.of3ds
  dsimp only
  rw [List.length_map, hcount]
  have h1 : Out.mapM (faceOf3dsD (m.points.map V3.toFloat)) (m.faces.map fun f => (⟨f.points.getD 0 0, f.points.getD 1 0, f.points.getD 2 0,
        (normalToD o (ptD m.points (f.points.getD 0 0)) (ptD m.points (f.points.getD 1 0)) (ptD m.points (f.points.getD 2 0))).toFloat⟩ : Face3dsF)) =
      .ok (m.faces.map (storedD o m.points)) := by
    have hv' : ∀ f ∈ m.faces, 3 ≤ f.degree ∧ ∀ i ∈ f.points, i < m.points.length := fun f hf => ⟨(hv f hf).1, (hv f hf).2.2⟩
    clear hcount hfill hc hv
    generalize m.faces = fs at *
    induction fs with
    | nil => rfl
    | cons f fs ih =>
      have hj : ∀ j < 3, f.points.getD j 0 < m.points.length := by
        intro j hj
        obtain ⟨h3, hval⟩ := hv' f (by simp)
        unfold Face.degree at h3
        refine hval _ ?_
        rw [List.getD_eq_getElem _ _ (by omega)]
        exact List.getElem_mem _
      rw [List.map_cons, Out.mapM_cons, ih fun f hf => hv' f (by simp [hf])]
      unfold faceOf3dsD
      dsimp only
      rw [I (hj 0 (by norm_num)), Out.ok_bind, I (hj 1 (by norm_num)), Out.ok_bind, I (hj 2 (by norm_num)), Out.ok_bind]
      rfl
  have h2 : ∀ n, (0 < n → 0 < m.points.length) → Out.mapM (faceOf3dsD (m.points.map V3.toFloat)) (List.replicate n Face3dsF.zero) = .ok (List.replicate n ⟨[0, 0, 0]⟩) := by
    intro n hn
    have : ∀ x ∈ List.replicate n Face3dsF.zero, faceOf3dsD (m.points.map V3.toFloat) x = .ok ((fun _ => ⟨[0, 0, 0]⟩ : Face3dsF → Face) x) := by
      intro x hx
      obtain ⟨h0, rfl⟩ := List.mem_replicate.1 hx
      have hl := hn (by omega)
      unfold faceOf3dsD
      simp only [Face3dsF.zero]
      rw [I hl, Out.ok_bind, Out.ok_bind, Out.ok_bind]
      unfold Face.ofTriple
      split <;> rfl
    rw [Out.mapM_ok_of this]
    simp
  rw [Out.mapM_append h1 (h2 _ ?_), Out.ok_bind]
  intro hpos
  cases hfs : m.faces with
  | nil => simp [hfs] at hpos
  | cons f fs =>
    have := hv f (by simp [hfs]); omega

/-- C91: a mesh with a face that is not accepted as convex is refused, whatever the other faces are. -/
theorem C91_refused (o : SumOrder) (m : DMesh) (hfit : Fits3dsD m) (hv : ValidD m) (hc : ¬ AllConvexD o m) : m.to3ds o = .thrown .logicError := by
  have key : ∀ (slots : Int) (fs : List Face) (k : Nat), (k : Int) + fs.length ≤ slots → (∀ f ∈ fs, f ∈ m.faces) →
      (∃ f ∈ fs, Face.isConvexD o f m.points ≠ .ok true) → fillSlotsD o m.points slots k fs = .thrown .logicError := by
    intro slots fs
    induction fs with
    | nil => rintro _ _ _ ⟨f, hf, -⟩; simp at hf
    | cons f fs ih =>
      intro k hk hm h
      obtain ⟨h3, hd, hi⟩ := hv f (hm f (by simp))
      obtain ⟨b, hb⟩ := (C90_errors o f m.points).2.2.1 hd h3 hi
      rw [fillSlotsD]
      cases b with
      | false =>
        unfold Face.to3dsD
        rw [if_neg (by exact not_lt.2 hd), hb, Out.ok_bind, if_neg (by simp), Out.thrown_bind]
      | true =>
        obtain ⟨ts, hts⟩ := to3dsD_ok h3 hd hi hb
        simp only [List.length_cons] at hk
        rw [hts, Out.ok_bind, Out.idx_ok (by simp), Out.ok_bind, if_pos (by omega), ih (k + 1) (by push_cast; omega) (fun f hf => hm f (by simp [hf])), Out.thrown_bind]
        obtain ⟨g, hg, hgc⟩ := h
        rcases List.mem_cons.1 hg with rfl | hg
        · exact absurd hb hgc
        · exact ⟨g, hg, hgc⟩
  unfold AllConvexD at hc
  push Not at hc
  unfold DMesh.to3ds
  rw [if_neg (by have := hfit.1; omega), if_neg (by have := hfit.2; omega), key _ _ 0 (by
    have := faceSlots_ge m.faces fun f hf => (hv f hf).1; simpa using this) (fun f hf => hf) hc, Out.thrown_bind]

/-- A mesh that meets the hypotheses: four corners of which one is NaN. -/
example : ∃ m : DMesh, Fits3dsD m ∧ ValidD m ∧ ¬ AllConvexD .xyz m := by
  refine ⟨⟨['n'], [⟨.fin 0, .fin 0, .fin 0⟩, ⟨.fin 1, .fin 0, .fin 0⟩, ⟨.fin 1, .fin 1, .fin 0⟩, ⟨.nan, .fin 1, .fin 0⟩], [⟨[0, 1, 2, 3]⟩]⟩, ⟨?_, by decide⟩, ?_, ?_⟩
  · decide
  · intro f hf
    simp only [List.mem_singleton] at hf
    subst hf
    exact ⟨by decide, by decide, by decide⟩
  · intro h
    have h1 := h ⟨[0, 1, 2, 3]⟩ (by simp)
    have h2 := C90_nan .xyz ⟨[0, 1, 2, 3]⟩ [⟨.fin 0, .fin 0, .fin 0⟩, ⟨.fin 1, .fin 0, .fin 0⟩, ⟨.fin 1, .fin 1, .fin 0⟩, ⟨.nan, .fin 1, .fin 0⟩]
      [⟨.fin 0, .fin 0, .fin 0⟩, ⟨.fin 1, .fin 0, .fin 0⟩, ⟨.fin 1, .fin 1, .fin 0⟩, ⟨.nan, .fin 1, .fin 0⟩] (by simp [Resolves]) (by decide) (by decide)
      ⟨.nan, .fin 1, .fin 0⟩ (by simp) (.inl rfl)
    simp only at h1
    rw [h2] at h1
    cases h1

/-- C91: rounding once is enough: the points of a mesh that was read from a 3DS structure are not changed by further round trips. -/
theorem C91_points_stable (o o' : SumOrder) (m m' m'' : DMesh) (d d' : Mesh3dsF) (h1 : m.to3ds o = .ok d) (h2 : DMesh.of3ds d = .ok m') (h3 : m'.to3ds o' = .ok d')
    (h4 : DMesh.of3ds d' = .ok m'') : m''.points = m'.points ∧ m'.points = m.points.map V3.toFloat := by
  have A : ∀ {o : SumOrder} {m m' : DMesh} {d : Mesh3dsF}, m.to3ds o = .ok d → DMesh.of3ds d = .ok m' → m'.points = m.points.map V3.toFloat := by
    intro o m m' d h1 h2
    unfold DMesh.to3ds at h1
    split at h1
    · cases h1
    split at h1
    · cases h1
    obtain ⟨ts, -, h⟩ := Out.bind_eq_ok.1 h1
    cases h
    unfold DMesh.of3ds at h2
    obtain ⟨fs, -, h⟩ := Out.bind_eq_ok.1 h2
    cases h
    rfl
  have e1 := A h1 h2
  have e2 := A h3 h4
  refine ⟨?_, e1⟩
  rw [e2, e1, List.map_map]
  apply List.map_congr_left
  intro p _
  exact toFloat_toFloat p

/-- C91: the error of the stored coordinate: one part in 2^24, plus 2^-150. A finite coordinate becomes infinite only from 2^127 on. -/
theorem C91_coordinate (x : ℚ) :
    (∀ y : ℚ, (Dbl.fin x).toFloat = .fin y → |y - x| ≤ 2 ^ (-24 : ℤ) * |x| + 2 ^ (-150 : ℤ)) ∧ (|x| ≤ 2 ^ (127 : ℤ) → ∃ y : ℚ, (Dbl.fin x).toFloat = .fin y) := by
  constructor
  · intro y h
    unfold Dbl.toFloat at h
    dsimp only at h
    split at h
    · cases h
    split at h
    · cases h
    cases h
    exact fl32_abs_rel x
  · intro h
    refine ⟨_, Dbl.toFloat_fin ?_⟩
    have h1 := fl32_abs_rel x
    have h2 : |fl32 x| ≤ |fl32 x - x| + |x| := by
      have := abs_add_le (fl32 x - x) x
      rwa [sub_add_cancel] at this
    generalize |fl32 x - x| = a at *
    generalize |fl32 x| = b at *
    generalize |x| = c at *
    norm_num at h h1 ⊢
    linarith

/-! ### Not a number -/

/-- Infinity or not a number. -/
def NonFinite (d : Dbl) : Prop := ∀ q : ℚ, d ≠ .fin q

theorem nonFinite_infOf (q : ℚ) : NonFinite (Dbl.infOf q) := by
  intro r
  unfold Dbl.infOf
  split
  · exact fun h => by cases h
  split <;> exact fun h => by cases h

theorem nonFinite_cases {d : Dbl} (h : NonFinite d) : d = .nan ∨ d = .ninf ∨ d = .pinf := by
  cases d with
  | fin x => exact absurd rfl (h x)
  | nan => exact .inl rfl
  | ninf => exact .inr (.inl rfl)
  | pinf => exact .inr (.inr rfl)

theorem nonFinite_nan : NonFinite .nan := fun _ h => by cases h
theorem nonFinite_ninf : NonFinite .ninf := fun _ h => by cases h
theorem nonFinite_pinf : NonFinite .pinf := fun _ h => by cases h

theorem NonFinite.mul_left {a : Dbl} (h : NonFinite a) (b : Dbl) : NonFinite (a.mul b) := by
  rcases nonFinite_cases h with rfl | rfl | rfl
  · cases b <;> exact nonFinite_nan
  · cases b with
    | nan => exact nonFinite_nan
    | fin y => exact nonFinite_infOf _
    | ninf => exact nonFinite_pinf
    | pinf => exact nonFinite_ninf
  · cases b with
    | nan => exact nonFinite_nan
    | fin y => exact nonFinite_infOf _
    | ninf => exact nonFinite_ninf
    | pinf => exact nonFinite_pinf

theorem NonFinite.mul_right {b : Dbl} (h : NonFinite b) (a : Dbl) : NonFinite (a.mul b) := by
  rw [Dbl.mul_comm']; exact h.mul_left a

theorem NonFinite.neg {a : Dbl} (h : NonFinite a) : NonFinite a.neg := by
  rcases nonFinite_cases h with rfl | rfl | rfl
  · exact nonFinite_nan
  · exact nonFinite_pinf
  · exact nonFinite_ninf

theorem NonFinite.add_left {a : Dbl} (h : NonFinite a) (b : Dbl) : NonFinite (a.add b) := by
  rcases nonFinite_cases h with rfl | rfl | rfl <;> cases b <;> first | exact nonFinite_nan | exact nonFinite_ninf | exact nonFinite_pinf

theorem NonFinite.add_right {b : Dbl} (h : NonFinite b) (a : Dbl) : NonFinite (a.add b) := by
  rw [Dbl.add_comm']; exact h.add_left a

theorem NonFinite.sub_left {a : Dbl} (h : NonFinite a) (b : Dbl) : NonFinite (a.sub b) := h.add_left _

theorem NonFinite.sub_right {b : Dbl} (h : NonFinite b) (a : Dbl) : NonFinite (a.sub b) := h.neg.add_right _

/-- A coordinate is infinite or not a number. -/
def NonFinitePoint (p : V3 Dbl) : Prop := NonFinite p.x ∨ NonFinite p.y ∨ NonFinite p.z

theorem normD_nonFinite (o : SumOrder) {c : V3 Dbl} (h : NonFinitePoint c) : normD o c = .nan ∨ normD o c = .pinf := by
  have hd : NonFinite (dotD o c c) := by
    unfold dotD SumOrder.sum
    cases o with
    | xyz =>
      rcases h with h | h | h
      · exact ((h.mul_left _).add_left _).add_left _
      · exact ((h.mul_left _).add_right _).add_left _
      · exact (h.mul_left _).add_right _
    | zyx =>
      rcases h with h | h | h
      · exact (h.mul_left _).add_right _
      · exact ((h.mul_left _).add_right _).add_left _
      · exact ((h.mul_left _).add_left _).add_left _
    | xzy =>
      rcases h with h | h | h
      · exact ((h.mul_left _).add_left _).add_left _
      · exact (h.mul_left _).add_right _
      · exact ((h.mul_left _).add_right _).add_left _
  unfold normD
  rcases nonFinite_cases hd with e | e | e <;> rw [e]
  · exact .inl rfl
  · exact .inl rfl
  · exact .inr rfl

theorem nonFinite_div {a b : Dbl} (h : NonFinite a) (hb : b = .nan ∨ b = .pinf) : a.div b = .nan := by
  rcases nonFinite_cases h with rfl | rfl | rfl <;> rcases hb with rfl | rfl <;> rfl

/-- A coordinate is not a number. -/
def NanPoint (p : V3 Dbl) : Prop := p.x = .nan ∨ p.y = .nan ∨ p.z = .nan

theorem normal_nan (o : SumOrder) {p q r : V3 Dbl} (h : NonFinitePoint p ∨ NonFinitePoint q ∨ NonFinitePoint r) : NanPoint (normalToD o p q r) := by
  have hside : NonFinitePoint (vecD p q) ∨ NonFinitePoint (vecD q r) := by
    unfold NonFinitePoint vecD at *
    dsimp only at *
    rcases h with (h | h | h) | (h | h | h) | (h | h | h)
    · exact .inl (.inl (h.sub_right _))
    · exact .inl (.inr (.inl (h.sub_right _)))
    · exact .inl (.inr (.inr (h.sub_right _)))
    · exact .inl (.inl (h.sub_left _))
    · exact .inl (.inr (.inl (h.sub_left _)))
    · exact .inl (.inr (.inr (h.sub_left _)))
    · exact .inr (.inl (h.sub_left _))
    · exact .inr (.inr (.inl (h.sub_left _)))
    · exact .inr (.inr (.inr (h.sub_left _)))
  have hc : NonFinitePoint (crossD (vecD p q) (vecD q r)) := by
    unfold crossD NonFinitePoint at *
    dsimp only
    generalize vecD p q = a at *
    generalize vecD q r = b at *
    rcases hside with (h | h | h) | (h | h | h)
    · exact .inr (.inl ((h.mul_left _).sub_right _))
    · exact .inl ((h.mul_left _).sub_left _)
    · exact .inl ((h.mul_left _).sub_right _)
    · exact .inr (.inl ((h.mul_right _).sub_left _))
    · exact .inl ((h.mul_right _).sub_right _)
    · exact .inl ((h.mul_right _).sub_left _)
  have hn := normD_nonFinite o hc
  unfold normalToD divsD NanPoint
  dsimp only
  rcases hc with h | h | h
  · exact .inl (nonFinite_div h hn)
  · exact .inr (.inl (nonFinite_div h hn))
  · exact .inr (.inr (nonFinite_div h hn))

theorem det_nan (a b : V3 Dbl) {c : V3 Dbl} (h : NanPoint c) : determinantD a b c = .nan := by
  have e : ∀ d : Dbl, d.sub .nan = .nan := fun d => by unfold Dbl.sub; exact add_nan d
  have e' : ∀ d : Dbl, Dbl.nan.sub d = .nan := fun d => by unfold Dbl.sub; exact nan_add _
  unfold determinantD
  rcases h with h | h | h
  · rw [h, mul_nan, mul_nan, e]
  · rw [h, mul_nan, mul_nan, e, e', nan_add, add_nan, e']
  · rw [h, mul_nan, mul_nan, e', e, nan_add, nan_add, e']

theorem toFloat_nan {p : V3 Dbl} (h : NanPoint p) : NanPoint p.toFloat := by
  unfold NanPoint V3.toFloat at *
  dsimp only
  rcases h with h | h | h
  · rw [h]; exact .inl rfl
  · rw [h]; exact .inr (.inl rfl)
  · rw [h]; exact .inr (.inr rfl)

/-- C91: a triangle with a coordinate that is infinite or not a number comes back turned over. -/
theorem C91_nonfinite_turned (o : SumOrder) (co : List (V3 Dbl)) (a b c : Nat)
    (h : NonFinitePoint (ptD co a) ∨ NonFinitePoint (ptD co b) ∨ NonFinitePoint (ptD co c)) : storedD o co ⟨[a, b, c]⟩ = ⟨[a, c, b]⟩ := by
  have : keptD o (ptD co a) (ptD co b) (ptD co c) = false := by
    unfold keptD
    rw [det_nan _ _ (toFloat_nan (normal_nan o h))]
    rfl
  show Face.ofTriple a b c (keptD o (ptD co a) (ptD co b) (ptD co c)) = _
  rw [this]
  rfl

/-! ### Orientation on a grid -/

theorem det_app {M : ℚ} (h1 : 2 ^ (-400 : ℤ) ≤ M) (h2 : M ≤ 2 ^ (400 : ℤ)) (a b c : V3 ℚ) (ax : |a.x| ≤ M) (ay : |a.y| ≤ M) (az : |a.z| ≤ M) (bx : |b.x| ≤ M) (by' : |b.y| ≤ M)
    (bz : |b.z| ≤ M) (cx : |c.x| ≤ 2) (cy : |c.y| ≤ 2) (cz : |c.z| ≤ 2) : App 7 (12 * M ^ 2) (determinantD a.toDbl b.toDbl c.toDbl) (V3.determinant a b c) := by
  have hM0 : 0 < M := lt_of_lt_of_le (two_zpow_pos _) h1
  have hlo : 2 ^ (-800 : ℤ) ≤ M ^ 2 := by
    have : (2 : ℚ) ^ (-800 : ℤ) = (2 ^ (-400 : ℤ)) ^ 2 := by rw [← zpow_natCast, ← zpow_mul]; norm_num
    rw [this]
    exact pow_le_pow_left₀ (two_zpow_pos _).le h1 2
  have hhi : M ^ 2 ≤ 2 ^ (800 : ℤ) := by
    have : (2 : ℚ) ^ (800 : ℤ) = (2 ^ (400 : ℤ)) ^ 2 := by rw [← zpow_natCast, ← zpow_mul]; norm_num
    rw [this]
    exact pow_le_pow_left₀ hM0.le h2 2
  have lo : ∀ k : ℚ, 1 ≤ k → 2 ^ (-1000 : ℤ) ≤ k * M ^ 2 := by
    intro k hk
    have h3 : (2 : ℚ) ^ (-1000 : ℤ) ≤ 2 ^ (-800 : ℤ) := zpow_le_zpow_right₀ (by norm_num) (by norm_num)
    nlinarith
  have hi : ∀ k : ℚ, k ≤ 16 → k * M ^ 2 ≤ 2 ^ (999 : ℤ) := by
    intro k hk
    have h3 : (16 : ℚ) * 2 ^ (800 : ℤ) ≤ 2 ^ (999 : ℤ) := by
      have : (16 : ℚ) = 2 ^ (4 : ℤ) := by norm_num
      rw [this, ← zpow_add₀ (by norm_num)]
      exact zpow_le_zpow_right₀ (by norm_num) (by norm_num)
    have h0 : 0 ≤ M ^ 2 := by positivity
    nlinarith
  have A : ∀ {x B : ℚ}, |x| ≤ B → App 0 B (.fin x) x := fun h => ⟨h, _, rfl, by rw [sub_self, abs_zero]; simp⟩
  have T : ∀ {x y z : ℚ}, |x| ≤ M → |y| ≤ M → |z| ≤ 2 → App 2 (2 * M ^ 2) (((Dbl.fin x).mul (.fin y)).mul (.fin z)) (x * y * z) := by
    intro x y z hx hy hz
    have e1 : M * M = 1 * M ^ 2 := by ring
    have g := (A hx).mul (A hy) (by norm_num) (by norm_num) (by norm_num) (by norm_num) (by rw [e1]; exact hi 1 (by norm_num)) (by rw [e1]; exact lo 1 le_rfl)
    have e2 : M * M * 2 = 2 * M ^ 2 := by ring
    have g' := g.mul (A hz) (by norm_num) (by norm_num) (by norm_num) (by norm_num) (by rw [e2]; exact hi 2 (by norm_num)) (by rw [e2]; exact lo 2 (by norm_num))
    rw [e2] at g'
    norm_num at g'
    exact g'
  have S : ∀ {k u : ℚ} {d e : Dbl} {x y : ℚ}, App k (u * M ^ 2) d x → App 2 (2 * M ^ 2) e y → 2 ≤ k → k ≤ 10 → 1 ≤ u → u ≤ 10 →
      App (k + 1) ((u + 2) * M ^ 2) (d.sub e) (x - y) ∧ App (k + 1) ((u + 2) * M ^ 2) (d.add e) (x + y) := by
    intro k u d e x y h h' hk hk' hu hu'
    have e1 : u * M ^ 2 + 2 * M ^ 2 = (u + 2) * M ^ 2 := by ring
    have g1 := h.sub (h'.mono hk) (by linarith) (by linarith) (by rw [e1]; exact hi _ (by linarith)) (by rw [e1]; exact lo _ (by linarith))
    have g2 := h.add (h'.mono hk) (by linarith) (by linarith) (by rw [e1]; exact hi _ (by linarith)) (by rw [e1]; exact lo _ (by linarith))
    rw [e1] at g1 g2
    exact ⟨g1, g2⟩
  have s1 := (S (T ax by' cz) (T ax bz cy) (by norm_num) (by norm_num) (by norm_num) (by norm_num)).1
  have s2 := (S s1 (T ay bx cz) (by norm_num) (by norm_num) (by norm_num) (by norm_num)).1
  have s3 := (S s2 (T ay bz cx) (by norm_num) (by norm_num) (by norm_num) (by norm_num)).2
  have s4 := (S s3 (T az bx cy) (by norm_num) (by norm_num) (by norm_num) (by norm_num)).2
  have s5 := (S s4 (T az by' cx) (by norm_num) (by norm_num) (by norm_num) (by norm_num)).1
  norm_num at s5
  exact s5

theorem grid_toFloat {s : ℤ} (h1 : -149 ≤ s) (h2 : s ≤ 100) {q : ℚ} (h : Scaled s (2 ^ 24) q) : (Dbl.fin q).toFloat = .fin q := by
  obtain ⟨n, hn, rfl⟩ := h
  have e := fl32_exact hn h1
  rw [Dbl.toFloat_fin, e]
  rw [e, abs_mul, abs_of_pos (two_zpow_pos (K := ℚ) s)]
  have a1 : |(n : ℚ)| ≤ 2 ^ 24 := by exact_mod_cast hn
  have a2 : (2 : ℚ) ^ s ≤ 2 ^ (100 : ℤ) := zpow_le_zpow_right₀ (by norm_num) h2
  calc |(n : ℚ)| * 2 ^ s ≤ 2 ^ 24 * 2 ^ (100 : ℤ) := mul_le_mul a1 a2 (two_zpow_pos _).le (by norm_num)
    _ < 2 ^ 128 := by norm_num

theorem grid_point_toFloat {s : ℤ} (h1 : -149 ≤ s) (h2 : s ≤ 100) {p : V3 ℚ} (h : ScaledPoint s (2 ^ 24) p) : p.toDbl.toFloat = p.toDbl := by
  unfold V3.toFloat V3.toDbl
  dsimp only
  rw [grid_toFloat h1 h2 h.1, grid_toFloat h1 h2 h.2.1, grid_toFloat h1 h2 h.2.2]

/-- A number near a coordinate of a unit vector, rounded to a float. -/
theorem near_toFloat {d : Dbl} {x : ℝ} (h : Near (2 ^ (-49 : ℤ)) d x) (hx : |x| ≤ 1) :
    ∃ y : ℚ, d.toFloat = .fin y ∧ |y| ≤ 2 ∧ |(y : ℝ) - x| ≤ 2 ^ (-23 : ℤ) * |x| + 2 ^ (-150 : ℤ) := by
  obtain ⟨q, rfl, hq⟩ := h
  have he := fl32_abs_rel q
  have he' : |((fl32 q : ℚ) : ℝ) - q| ≤ 2 ^ (-24 : ℤ) * |(q : ℝ)| + 2 ^ (-150 : ℤ) := by
    have := (Rat.cast_le (K := ℝ)).2 he
    rwa [Rat.cast_add, Rat.cast_mul, zpow_cast, zpow_cast, Rat.cast_abs, Rat.cast_abs, Rat.cast_sub] at this
  have t1 : |((fl32 q : ℚ) : ℝ) - x| ≤ |((fl32 q : ℚ) : ℝ) - q| + |(q : ℝ) - x| := abs_sub_le _ _ _
  have t2 : |(q : ℝ)| ≤ |(q : ℝ) - x| + |x| := by
    have := abs_add_le ((q : ℝ) - x) x
    rwa [sub_add_cancel] at this
  have t3 : |((fl32 q : ℚ) : ℝ)| ≤ |((fl32 q : ℚ) : ℝ) - x| + |x| := by
    have := abs_add_le (((fl32 q : ℚ) : ℝ) - x) x
    rwa [sub_add_cancel] at this
  have n1 := abs_nonneg x
  have hb : |((fl32 q : ℚ) : ℝ)| ≤ 2 ∧ |((fl32 q : ℚ) : ℝ) - x| ≤ 2 ^ (-23 : ℤ) * |x| + 2 ^ (-150 : ℤ) := by
    generalize |((fl32 q : ℚ) : ℝ) - x| = T1 at *
    generalize |((fl32 q : ℚ) : ℝ) - q| = T2 at *
    generalize |((fl32 q : ℚ) : ℝ)| = T3 at *
    generalize |(q : ℝ) - x| = T4 at *
    generalize |(q : ℝ)| = T5 at *
    generalize |x| = X at *
    norm_num at hq he' ⊢
    constructor <;> linarith
  have hb1 : |fl32 q| ≤ 2 := by exact_mod_cast hb.1
  exact ⟨_, Dbl.toFloat_fin (lt_of_le_of_lt hb1 (by norm_num)), hb1, hb.2⟩

/-- The determinant with a vector close to the unit normal. -/
theorem det_near (c n f : V3 ℝ) (N : ℝ) (hN : 0 < N) (hNN : N * N = dot c c) (hn : n = ⟨c.x / N, c.y / N, c.z / N⟩)
    (hx : |f.x - n.x| ≤ 2 ^ (-23 : ℤ) * |n.x| + 2 ^ (-150 : ℤ)) (hy : |f.y - n.y| ≤ 2 ^ (-23 : ℤ) * |n.y| + 2 ^ (-150 : ℤ))
    (hz : |f.z - n.z| ≤ 2 ^ (-23 : ℤ) * |n.z| + 2 ^ (-150 : ℤ)) : |dot c f - N| ≤ 2 ^ (-22 : ℤ) * N := by
  have e1 : dot c f - N = c.x * (f.x - n.x) + c.y * (f.y - n.y) + c.z * (f.z - n.z) := by
    have : N = c.x * n.x + c.y * n.y + c.z * n.z := by
      rw [hn]
      dsimp only
      unfold dot at hNN
      field_simp
      linarith
    unfold dot
    linarith
  have bound : ∀ {u v w : ℝ}, v = u / N → |w - v| ≤ 2 ^ (-23 : ℤ) * |v| + 2 ^ (-150 : ℤ) → |u| ≤ N → |u * (w - v)| ≤ 2 ^ (-23 : ℤ) * (u * u / N) + 2 ^ (-150 : ℤ) * N := by
    intro u v w hv hw hu
    rw [abs_mul]
    have h1 := mul_le_mul_of_nonneg_left hw (abs_nonneg u)
    have h2 : |u| * |v| = u * u / N := by rw [hv, abs_div, abs_of_pos hN, ← mul_div_assoc, abs_mul_abs_self]
    have h3 : |u| * 2 ^ (-150 : ℤ) ≤ 2 ^ (-150 : ℤ) * N := by rw [mul_comm]; exact mul_le_mul_of_nonneg_left hu (two_zpow_pos _).le
    calc |u| * |w - v| ≤ |u| * (2 ^ (-23 : ℤ) * |v| + 2 ^ (-150 : ℤ)) := h1
      _ = 2 ^ (-23 : ℤ) * (|u| * |v|) + |u| * 2 ^ (-150 : ℤ) := by ring
      _ ≤ _ := by rw [h2]; linarith
  have sq : c.x * c.x + c.y * c.y + c.z * c.z = N * N := by rw [hNN]; rfl
  have n1 := mul_self_nonneg c.x
  have n2 := mul_self_nonneg c.y
  have n3 := mul_self_nonneg c.z
  have bx := bound (by rw [hn]) hx (abs_le_of_sq_le_sq (by nlinarith) hN.le)
  have by' := bound (by rw [hn]) hy (abs_le_of_sq_le_sq (by nlinarith) hN.le)
  have bz := bound (by rw [hn]) hz (abs_le_of_sq_le_sq (by nlinarith) hN.le)
  have hs : c.x * c.x / N + c.y * c.y / N + c.z * c.z / N = N := by
    field_simp
    linarith
  rw [e1]
  have t1 := abs_add_le (c.x * (f.x - n.x) + c.y * (f.y - n.y)) (c.z * (f.z - n.z))
  have t2 := abs_add_le (c.x * (f.x - n.x)) (c.y * (f.y - n.y))
  generalize |c.x * (f.x - n.x) + c.y * (f.y - n.y) + c.z * (f.z - n.z)| = T0 at *
  generalize |c.x * (f.x - n.x) + c.y * (f.y - n.y)| = T1 at *
  generalize |c.x * (f.x - n.x)| = T2 at *
  generalize |c.y * (f.y - n.y)| = T3 at *
  generalize |c.z * (f.z - n.z)| = T4 at *
  generalize c.x * c.x / N = X at *
  generalize c.y * c.y / N = Y at *
  generalize c.z * c.z / N = Z at *
  norm_num at bx by' bz ⊢
  linarith

/-- Twice the area of a triangle. -/
noncomputable def area2 (p q r : V3 ℚ) : ℝ := V3.norm (V3.cross (V3.sub (realPoint q) (realPoint p)) (V3.sub (realPoint r) (realPoint q)))

/-- C91: on a grid (integer coordinates up to 2^24, in a unit that is a power of two) the determinant computed on reading is twice the area of the triangle up to one part in 2^20,
when the triangle is not flat and is at most 4096 units wide. -/
theorem C91_determinant_partial (o : SumOrder) (s : ℤ) (h1 : -149 ≤ s) (h2 : s ≤ 100) (p q r : V3 ℚ) (hp : ScaledPoint s (2 ^ 24) p) (hq : ScaledPoint s (2 ^ 24) q)
    (hr : ScaledPoint s (2 ^ 24) r) (hqp : ScaledPoint s (2 ^ 12) (V3.sub q p)) (hrq : ScaledPoint s (2 ^ 12) (V3.sub r q)) (h0 : ¬ Collinear3 (realPoint p) (realPoint q) (realPoint r)) :
    ∃ d : ℚ, determinantD (subD q.toDbl.toFloat p.toDbl.toFloat) (subD r.toDbl.toFloat q.toDbl.toFloat) (normalToD o p.toDbl q.toDbl r.toDbl).toFloat = .fin d ∧
      |(d : ℝ) - area2 p q r| ≤ 2 ^ (-20 : ℤ) * area2 p q r := by
  have up : ∀ {a : V3 ℚ}, ScaledPoint s (2 ^ 24) a → ScaledPoint s (2 ^ 25) a := by
    rintro a ⟨a1, a2, a3⟩
    exact ⟨a1.mono (by norm_num), a2.mono (by norm_num), a3.mono (by norm_num)⟩
  have v1 : subD q.toDbl p.toDbl = (V3.sub q p).toDbl := (C88_exact_partial o s (by omega) (by omega) q p (up hq) (up hp)).2.1
  have v2 : subD r.toDbl q.toDbl = (V3.sub r q).toDbl := (C88_exact_partial o s (by omega) (by omega) r q (up hr) (up hq)).2.1
  rw [grid_point_toFloat h1 h2 hp, grid_point_toFloat h1 h2 hq, grid_point_toFloat h1 h2 hr, v1, v2]
  have hn := (C89_grid_partial o s (by omega) (by omega) p q r hp hq hr).2 h0
  set c := V3.cross (V3.sub q p) (V3.sub r q) with hcdef
  have hcR : V3.cross (V3.sub (realPoint q) (realPoint p)) (V3.sub (realPoint r) (realPoint q)) = realPoint c := by
    rw [hcdef]
    unfold realPoint V3.cross V3.sub
    push_cast
    rfl
  have hnorm : normalTo (realPoint p) (realPoint q) (realPoint r) = V3.divs (realPoint c) (V3.norm (realPoint c)) := by rw [← hcR]; rfl
  have hc0 : c ≠ ⟨0, 0, 0⟩ := by
    intro h
    apply h0
    unfold Collinear3
    rw [hcR, h]
    unfold realPoint V3.zero
    norm_num
  have harea : area2 p q r = V3.norm (realPoint c) := by unfold area2; rw [hcR]
  rw [harea]
  have hlow : (2 : ℝ) ^ (2 * s) ≤ V3.norm (realPoint c) := by
    obtain ⟨a1, a2, a3⟩ := hqp
    obtain ⟨b1, b2, b3⟩ := hrq
    have big : ∀ {N : ℤ} {x : ℚ}, Scaled (s + s) N x → x ≠ 0 → (2 : ℝ) ^ (2 * s) ≤ |(x : ℝ)| := by
      rintro N x ⟨n, -, rfl⟩ hx
      have hn : n ≠ 0 := by rintro rfl; exact hx (by simp)
      have hn1 : 1 ≤ |n| := Int.one_le_abs hn
      have hn1' : (1 : ℝ) ≤ |(n : ℝ)| := by exact_mod_cast hn1
      rw [Rat.cast_mul, zpow_cast, Rat.cast_intCast, abs_mul, abs_of_pos (two_zpow_pos (K := ℝ) _), two_mul]
      exact le_mul_of_one_le_left (two_zpow_pos _).le hn1'
    have le : ∀ {x : ℝ}, x * x ≤ V3.dot (realPoint c) (realPoint c) → |x| ≤ V3.norm (realPoint c) := fun h => by
      unfold V3.norm
      exact Real.abs_le_sqrt (by rw [sq]; exact h)
    have nx := mul_self_nonneg (c.x : ℝ)
    have ny := mul_self_nonneg (c.y : ℝ)
    have nz := mul_self_nonneg (c.z : ℝ)
    by_cases hx : c.x = 0
    · by_cases hy : c.y = 0
      · have hz : c.z ≠ 0 := fun hz => hc0 (V3.ext hx hy hz)
        exact (big (x := c.z) ((a1.mul b2).sub (a2.mul b1)) hz).trans (le (by unfold V3.dot realPoint; dsimp only; linarith))
      · exact (big (x := c.y) ((a3.mul b1).sub (a1.mul b3)) hy).trans (le (by unfold V3.dot realPoint; dsimp only; linarith))
    · exact (big (x := c.x) ((a2.mul b3).sub (a3.mul b2)) hx).trans (le (by unfold V3.dot realPoint; dsimp only; linarith))
  have hN : 0 < V3.norm (realPoint c) := lt_of_lt_of_le (two_zpow_pos _) hlow
  have hNN : V3.norm (realPoint c) * V3.norm (realPoint c) = V3.dot (realPoint c) (realPoint c) := by
    unfold V3.norm
    apply Real.mul_self_sqrt
    unfold V3.dot
    nlinarith [mul_self_nonneg (realPoint c).x, mul_self_nonneg (realPoint c).y, mul_self_nonneg (realPoint c).z]
  rw [hnorm] at hn
  generalize hNdef : V3.norm (realPoint c) = N at *
  have unit : ∀ {x : ℝ}, x * x ≤ V3.dot (realPoint c) (realPoint c) → |x / N| ≤ 1 := by
    intro x hx
    rw [abs_div, abs_of_pos hN, div_le_one hN]
    exact abs_le_of_sq_le_sq (by rw [sq, sq, hNN]; exact hx) hN.le
  have nx := mul_self_nonneg (c.x : ℝ)
  have ny := mul_self_nonneg (c.y : ℝ)
  have nz := mul_self_nonneg (c.z : ℝ)
  obtain ⟨fx, ex, bx, rx⟩ := near_toFloat hn.1 (unit (by unfold V3.dot realPoint; dsimp only; linarith))
  obtain ⟨fy, ey, by', ry⟩ := near_toFloat hn.2.1 (unit (by unfold V3.dot realPoint; dsimp only; linarith))
  obtain ⟨fz, ez, bz, rz⟩ := near_toFloat hn.2.2 (unit (by unfold V3.dot realPoint; dsimp only; linarith))
  have hf : (normalToD o p.toDbl q.toDbl r.toDbl).toFloat = (⟨fx, fy, fz⟩ : V3 ℚ).toDbl := by
    unfold V3.toFloat
    rw [ex, ey, ez]
    rfl
  rw [hf]
  have wide : ∀ {x : ℚ}, Scaled s (2 ^ 12) x → |x| ≤ 2 ^ (12 + s) := by
    rintro x ⟨n, hn, rfl⟩
    rw [abs_mul, abs_of_pos (two_zpow_pos (K := ℚ) _), zpow_add₀ (by norm_num)]
    refine mul_le_mul_of_nonneg_right ?_ (two_zpow_pos _).le
    have : |(n : ℚ)| ≤ 2 ^ 12 := by exact_mod_cast hn
    exact_mod_cast this
  obtain ⟨-, d, hd, herr⟩ := det_app (M := 2 ^ (12 + s)) (zpow_le_zpow_right₀ (by norm_num) (by omega)) (zpow_le_zpow_right₀ (by norm_num) (by omega)) (V3.sub q p) (V3.sub r q)
    ⟨fx, fy, fz⟩ (wide hqp.1) (wide hqp.2.1) (wide hqp.2.2) (wide hrq.1) (wide hrq.2.1) (wide hrq.2.2) bx by' bz
  refine ⟨d, hd, ?_⟩
  have hnear := det_near (realPoint c) (V3.divs (realPoint c) N) ⟨fx, fy, fz⟩ N hN hNN rfl rx ry rz
  have hdet : ((V3.determinant (V3.sub q p) (V3.sub r q) ⟨fx, fy, fz⟩ : ℚ) : ℝ) = V3.dot (realPoint c) ⟨fx, fy, fz⟩ := by
    rw [hcdef]
    unfold V3.determinant V3.dot V3.cross realPoint
    push_cast
    ring
  have herr' : |(d : ℝ) - V3.dot (realPoint c) ⟨fx, fy, fz⟩| ≤ 2 ^ (-21 : ℤ) * N := by
    have e1 : (7 : ℚ) * 2 ^ (-52 : ℤ) * (12 * (2 ^ (12 + s)) ^ 2) ≤ 2 ^ (-21 : ℤ) * 2 ^ (2 * s) := by
      have : ((2 : ℚ) ^ (12 + s)) ^ 2 = 2 ^ (24 : ℤ) * 2 ^ (2 * s) := by
        rw [← zpow_natCast, ← zpow_mul, ← zpow_add₀ (by norm_num)]
        congr 1
        push_cast
        ring
      rw [this]
      have p2 : (0 : ℚ) < 2 ^ (2 * s) := two_zpow_pos _
      generalize (2 : ℚ) ^ (2 * s) = S at *
      norm_num
      linarith
    have := (Rat.cast_le (K := ℝ)).2 (herr.trans e1)
    rw [Rat.cast_mul, zpow_cast, zpow_cast, Rat.cast_abs, Rat.cast_sub, hdet] at this
    exact this.trans (mul_le_mul_of_nonneg_left hlow (two_zpow_pos _).le)
  have t := abs_sub_le (d : ℝ) (V3.dot (realPoint c) ⟨fx, fy, fz⟩) N
  generalize |(d : ℝ) - V3.dot (realPoint c) ⟨fx, fy, fz⟩| = T1 at *
  generalize |V3.dot (realPoint c) ⟨fx, fy, fz⟩ - N| = T2 at *
  generalize |(d : ℝ) - N| = T3 at *
  norm_num at hnear herr' ⊢
  linarith

/-- C91: the triangle is read back as it was when twice its area is at least 2^-51, and turned over when it is at most 2^-53: on a grid, at most 4096 units wide. -/
theorem C91_orientation_partial (o : SumOrder) (s : ℤ) (h1 : -149 ≤ s) (h2 : s ≤ 100) (co : List (V3 ℚ)) (hco : ∀ p ∈ co, ScaledPoint s (2 ^ 24) p) (a b c : Nat) (ha : a < co.length)
    (hb : b < co.length) (hc : c < co.length) (hab : ScaledPoint s (2 ^ 12) (V3.sub co[b] co[a])) (hbc : ScaledPoint s (2 ^ 12) (V3.sub co[c] co[b])) :
    (2 ^ (-51 : ℤ) ≤ area2 co[a] co[b] co[c] → storedD o (co.map V3.toDbl) ⟨[a, b, c]⟩ = ⟨[a, b, c]⟩) ∧
    (area2 co[a] co[b] co[c] ≤ 2 ^ (-53 : ℤ) → storedD o (co.map V3.toDbl) ⟨[a, b, c]⟩ = ⟨[a, c, b]⟩) := by
  have P : ∀ {i} (hi : i < co.length), ptD (co.map V3.toDbl) i = co[i].toDbl := by
    intro i hi
    simp [ptD, hi]
  have e : storedD o (co.map V3.toDbl) ⟨[a, b, c]⟩ = Face.ofTriple a b c (keptD o co[a].toDbl co[b].toDbl co[c].toDbl) := by
    rw [← P ha, ← P hb, ← P hc]; rfl
  rw [e]
  unfold keptD
  have ga := hco _ (List.getElem_mem ha)
  have gb := hco _ (List.getElem_mem hb)
  have gc := hco _ (List.getElem_mem hc)
  by_cases h0 : Collinear3 (realPoint co[a]) (realPoint co[b]) (realPoint co[c])
  · have hz : area2 co[a] co[b] co[c] = 0 := by
      unfold area2
      rw [show V3.cross (V3.sub (realPoint co[b]) (realPoint co[a])) (V3.sub (realPoint co[c]) (realPoint co[b])) = V3.zero from h0]
      simp [V3.norm, V3.dot, V3.zero]
    have hn := (C89_grid_partial o s (by omega) (by omega) _ _ _ ga gb gc).1.1 h0
    rw [hn, hz]
    constructor
    · intro h
      exact absurd h (not_le.2 (two_zpow_pos _))
    · intro _
      rw [det_nan _ _ (toFloat_nan (.inl rfl))]
      rfl
  · obtain ⟨d, hd, herr⟩ := C91_determinant_partial o s h1 h2 _ _ _ ga gb gc hab hbc h0
    rw [hd]
    generalize area2 co[a] co[b] co[c] = A at *
    have lt : (Dbl.fin (2 ^ (-52 : ℤ))).lt (.fin d) = decide ((2 : ℚ) ^ (-52 : ℤ) < d) := rfl
    have hdr : (2 : ℚ) ^ (-52 : ℤ) < d ↔ (2 : ℝ) ^ (-52 : ℤ) < d := by rw [← zpow_cast (K := ℝ), Rat.cast_lt]
    have herr' := abs_le.1 herr
    rw [lt]
    constructor
    · intro h
      rw [decide_eq_true (hdr.2 ?_)]
      · rfl
      · norm_num at h herr' ⊢
        linarith
    · intro h
      rw [decide_eq_false (hdr.not.2 ?_)]
      · rfl
      · norm_num at h herr' ⊢
        linarith

/-- A mesh with rational coordinates, as a mesh of doubles. -/
def dmesh (name : Text) (ps : List (V3 ℚ)) (fs : List Face) : DMesh := ⟨name, ps.map V3.toDbl, fs⟩

/-- C91 as stated: a mesh of triangles that are not flat, with finite coordinates, is read back as it was. False: `C91_refuted`. -/
def C91_full : Prop := ∀ (o : SumOrder) (name : Text) (ps : List (V3 ℚ)) (fs : List Face), (∀ p ∈ ps, DoublePoint p) → Fits3dsD (dmesh name ps fs) → ValidD (dmesh name ps fs) →
  (∀ f ∈ fs, f.degree = 3) → '\x00' ∉ name →
  (∀ f ∈ fs, ¬ Collinear3 (realPoint (pt ps (f.points.getD 0 0))) (realPoint (pt ps (f.points.getD 1 0))) (realPoint (pt ps (f.points.getD 2 0)))) →
  ∃ d, (dmesh name ps fs).to3ds o = .ok d ∧ DMesh.of3ds d = .ok (dmesh name ps fs)

theorem triangles_convex (o : SumOrder) (m : DMesh) (hv : ValidD m) (h3 : ∀ f ∈ m.faces, f.degree = 3) : AllConvexD o m := by
  intro f hf
  have e := h3 f hf
  have hl := (hv f hf).2.1
  unfold Face.degree at e hl
  unfold Face.isConvexD
  dsimp only
  rw [if_neg (by omega), if_neg (by omega), if_neg (by omega)]

theorem cName_self {name : Text} (hname : '\x00' ∉ name) : cName name = name := by
  unfold cName
  rw [List.takeWhile_eq_self_iff]
  intro c hc
  simp only [bne_iff_ne, ne_eq]
  rintro rfl
  exact hname hc

/-- C91, the part that holds: on a grid (integer coordinates up to 2^24 in a unit that is a power of two), when every triangle is at most 4096 units wide and twice its area is at least 2^-51,
the mesh is read back as it was. Missing: coordinates with more digits than a float has, long or tiny triangles, polygons. -/
theorem C91_triangles_partial (o : SumOrder) (s : ℤ) (h1 : -149 ≤ s) (h2 : s ≤ 100) (name : Text) (ps : List (V3 ℚ)) (fs : List Face) (hps : ∀ p ∈ ps, ScaledPoint s (2 ^ 24) p)
    (hfit : Fits3dsD (dmesh name ps fs)) (hv : ValidD (dmesh name ps fs)) (h3 : ∀ f ∈ fs, f.degree = 3) (hname : '\x00' ∉ name)
    (hwide : ∀ f ∈ fs, ∀ i ∈ f.points, ∀ j ∈ f.points, ScaledPoint s (2 ^ 12) (V3.sub (pt ps j) (pt ps i)))
    (harea : ∀ f ∈ fs, 2 ^ (-51 : ℤ) ≤ area2 (pt ps (f.points.getD 0 0)) (pt ps (f.points.getD 1 0)) (pt ps (f.points.getD 2 0))) :
    ∃ d, (dmesh name ps fs).to3ds o = .ok d ∧ DMesh.of3ds d = .ok (dmesh name ps fs) := by
  obtain ⟨d, hd, hr⟩ := C91_shape o (dmesh name ps fs) hfit hv (triangles_convex o _ hv h3)
  refine ⟨d, hd, ?_⟩
  rw [hr]
  have e1 : cName (dmesh name ps fs).name = name := cName_self hname
  have e2 : (dmesh name ps fs).points.map V3.toFloat = ps.map V3.toDbl := by
    show (ps.map V3.toDbl).map V3.toFloat = _
    rw [List.map_map]
    apply List.map_congr_left
    intro p hp
    exact grid_point_toFloat h1 h2 (hps p hp)
  have e3 : (dmesh name ps fs).faces.map (storedD o (dmesh name ps fs).points) = fs := by
    conv_rhs => rw [← List.map_id fs]
    apply List.map_congr_left
    intro f hf
    have hl := h3 f hf
    have hval := (hv f hf).2.2
    have hw := hwide f hf
    have har := harea f hf
    unfold Face.degree at hl
    obtain ⟨p⟩ := f
    match p, hl with
    | [a, b, c], _ =>
      have ha : a < ps.length := by simpa [dmesh] using hval a (by simp)
      have hb : b < ps.length := by simpa [dmesh] using hval b (by simp)
      have hc : c < ps.length := by simpa [dmesh] using hval c (by simp)
      have P : ∀ {i} (hi : i < ps.length), pt ps i = ps[i] := by
        intro i hi
        simp [pt, hi]
      have w1 := hw a (by simp) b (by simp)
      have w2 := hw b (by simp) c (by simp)
      rw [P ha, P hb] at w1
      rw [P hb, P hc] at w2
      refine (C91_orientation_partial o s h1 h2 ps hps a b c ha hb hc w1 w2).1 ?_
      rw [← P ha, ← P hb, ← P hc]
      exact har
  have e4 : ((dmesh name ps fs).faces.map fun f => f.degree - 3).sum = 0 := by
    have : ((dmesh name ps fs).faces.map fun f => f.degree - 3) = fs.map fun _ => 0 := by
      apply List.map_congr_left
      intro f hf
      rw [h3 f hf]
    rw [this]; simp
  rw [e1, e2, e3, e4, List.replicate_zero, List.append_nil]
  rfl

/-- A triangle of 16 metres in a national grid, with quarters of metres. -/
def lot : List (V3 ℚ) := [⟨652000, 6862000 + 1 / 4, 0⟩, ⟨652016, 6862000, 0⟩, ⟨652016, 6862016, 0⟩]

/-- A triangle with sides of 2^-27. -/
def chip : List (V3 ℚ) := [⟨0, 0, 0⟩, ⟨2 ^ (-27 : ℤ), 0, 0⟩, ⟨0, 2 ^ (-27 : ℤ), 0⟩]

/-- C91 fails in two ways, whatever the order of the sum: a point of a national grid moves by a quarter of a metre; a tiny triangle is turned over. -/
theorem C91_refuted_each (o : SumOrder) :
    (∃ d r, (dmesh ['l'] lot [⟨[0, 1, 2]⟩]).to3ds o = .ok d ∧ DMesh.of3ds d = .ok r ∧ r.points[0]? = some (⟨652000, 6862000, 0⟩ : V3 ℚ).toDbl) ∧
    (∃ d, (dmesh ['c'] chip [⟨[0, 1, 2]⟩]).to3ds o = .ok d ∧ DMesh.of3ds d = .ok (dmesh ['c'] chip [⟨[0, 2, 1]⟩])) := by
  have v : ∀ (n : Char) (a b c : V3 ℚ), n ≠ '\x00' → Fits3dsD (dmesh [n] [a, b, c] [⟨[0, 1, 2]⟩]) ∧ ValidD (dmesh [n] [a, b, c] [⟨[0, 1, 2]⟩]) ∧
      ∀ f ∈ (dmesh [n] [a, b, c] [⟨[0, 1, 2]⟩]).faces, f.degree = 3 := by
    intro n a b c hn
    refine ⟨⟨?_, ?_⟩, ?_, ?_⟩
    · show (cName [n]).length < 63
      rw [cName_self (by simp [hn.symm])]
      norm_num
    · show (List.map V3.toDbl [a, b, c]).length < 65536
      simp
    · intro f hf
      simp only [dmesh, List.mem_singleton] at hf
      subst hf
      simp [Face.degree, dmesh]
    · intro f hf
      simp only [dmesh, List.mem_singleton] at hf
      subst hf
      rfl
  constructor
  · obtain ⟨v1, v2, v3⟩ := v 'l' ⟨652000, 6862000 + 1 / 4, 0⟩ ⟨652016, 6862000, 0⟩ ⟨652016, 6862016, 0⟩ (by decide)
    obtain ⟨d, hd, hr⟩ := C91_shape o _ v1 v2 (triangles_convex o _ v2 v3)
    refine ⟨d, _, hd, hr, ?_⟩
    show some (⟨652000, 6862000 + 1 / 4, 0⟩ : V3 ℚ).toDbl.toFloat = _
    congr 1
    decide +kernel
  · obtain ⟨v1, v2, v3⟩ := v 'c' ⟨0, 0, 0⟩ ⟨2 ^ (-27 : ℤ), 0, 0⟩ ⟨0, 2 ^ (-27 : ℤ), 0⟩ (by decide)
    obtain ⟨d, hd, hr⟩ := C91_shape o _ v1 v2 (triangles_convex o _ v2 v3)
    have hz : ∀ N : ℤ, 0 ≤ N → Scaled (-27) N 0 := fun N h => ⟨0, by simpa using h, by norm_num⟩
    have ho : ∀ N : ℤ, 1 ≤ N → Scaled (-27) N (2 ^ (-27 : ℤ)) := fun N h => ⟨1, by simpa using h, by norm_num⟩
    have hm : ∀ N : ℤ, 1 ≤ N → Scaled (-27) N (-2 ^ (-27 : ℤ)) := fun N h => (ho N h).neg
    have hs := (C91_orientation_partial o (-27) (by norm_num) (by norm_num) chip (by
      intro p hp
      simp only [chip, List.mem_cons, List.not_mem_nil, or_false] at hp
      rcases hp with rfl | rfl | rfl
      · exact ⟨hz _ (by norm_num), hz _ (by norm_num), hz _ (by norm_num)⟩
      · exact ⟨ho _ (by norm_num), hz _ (by norm_num), hz _ (by norm_num)⟩
      · exact ⟨hz _ (by norm_num), ho _ (by norm_num), hz _ (by norm_num)⟩) 0 1 2 (by decide) (by decide) (by decide)
      (by
        show ScaledPoint _ _ (V3.sub ⟨2 ^ (-27 : ℤ), 0, 0⟩ ⟨0, 0, 0⟩)
        simp only [V3.sub, sub_zero]
        exact ⟨ho _ (by norm_num), hz _ (by norm_num), hz _ (by norm_num)⟩)
      (by
        show ScaledPoint _ _ (V3.sub ⟨0, 2 ^ (-27 : ℤ), 0⟩ ⟨2 ^ (-27 : ℤ), 0, 0⟩)
        simp only [V3.sub, sub_zero, zero_sub]
        exact ⟨hm _ (by norm_num), ho _ (by norm_num), hz _ (by norm_num)⟩)).2 (by
        show area2 ⟨0, 0, 0⟩ ⟨2 ^ (-27 : ℤ), 0, 0⟩ ⟨0, 2 ^ (-27 : ℤ), 0⟩ ≤ _
        unfold area2 V3.norm
        apply Real.sqrt_le_iff.2
        simp only [V3.dot, V3.cross, V3.sub, realPoint]
        norm_num)
    refine ⟨d, hd, ?_⟩
    rw [hr]
    have e2 : (dmesh ['c'] chip [⟨[0, 1, 2]⟩]).points.map V3.toFloat = (dmesh ['c'] chip [⟨[0, 2, 1]⟩]).points := by
      show (chip.map V3.toDbl).map V3.toFloat = chip.map V3.toDbl
      decide +kernel
    have e3 : (dmesh ['c'] chip [⟨[0, 1, 2]⟩]).faces.map (storedD o (dmesh ['c'] chip [⟨[0, 1, 2]⟩]).points) = [⟨[0, 2, 1]⟩] := by
      show [storedD o (chip.map V3.toDbl) ⟨[0, 1, 2]⟩] = _
      rw [hs]
    have e5 : dmesh ['c'] [⟨0, 0, 0⟩, ⟨2 ^ (-27 : ℤ), 0, 0⟩, ⟨0, 2 ^ (-27 : ℤ), 0⟩] [⟨[0, 1, 2]⟩] = dmesh ['c'] chip [⟨[0, 1, 2]⟩] := rfl
    rw [e5, e2, e3]
    have e6 : cName (dmesh ['c'] chip [⟨[0, 1, 2]⟩]).name = ['c'] := cName_self (by decide)
    rw [e6]
    rfl

theorem C91_refuted : ¬ C91_full := by
  intro h
  obtain ⟨d, r, h1, h2, h3⟩ := (C91_refuted_each .xyz).1
  obtain ⟨d', h1', h2'⟩ := h .xyz ['l'] lot [⟨[0, 1, 2]⟩] (by
    have hd : ∀ m : ℤ, |m| < 2 ^ 53 → IsDouble m := double_z
    have hq : IsDouble (6862000 + 1 / 4) := by
      have := double_scaled 27448001 (-2) (by norm_num) (by norm_num) (by norm_num)
      have e : ((27448001 : ℤ) : ℚ) * 2 ^ (-2 : ℤ) = 6862000 + 1 / 4 := by norm_num
      rwa [e] at this
    intro p hp
    simp only [lot, List.mem_cons, List.not_mem_nil, or_false] at hp
    rcases hp with rfl | rfl | rfl
    · exact ⟨by simpa using hd 652000 (by norm_num), hq, double_0⟩
    · exact ⟨by simpa using hd 652016 (by norm_num), by simpa using hd 6862000 (by norm_num), double_0⟩
    · exact ⟨by simpa using hd 652016 (by norm_num), by simpa using hd 6862016 (by norm_num), double_0⟩)
    ⟨by decide, by simp [dmesh, lot]⟩ (by
      intro f hf
      simp only [dmesh, List.mem_singleton] at hf
      subst hf
      simp [Face.degree, dmesh, lot]) (by
      intro f hf
      simp only [List.mem_singleton] at hf
      subst hf
      rfl) (by decide) (by
      intro f hf
      simp only [List.mem_singleton] at hf
      subst hf
      unfold Collinear3
      intro h
      have := congrArg V3.z h
      simp [V3.cross, V3.sub, realPoint, lot, pt, V3.zero] at this
      norm_num at this)
  rw [h1] at h1'
  cases h1'
  rw [h2] at h2'
  cases h2'
  revert h3
  decide +kernel

/-- The hypotheses of `C91_triangles_partial` hold for a triangle of a national grid with coordinates in half metres. -/
example (o : SumOrder) : ∃ d, (dmesh ['p'] [⟨652000, 6862000 + 1 / 2, 0⟩, ⟨652016, 6862000, 0⟩, ⟨652016, 6862016, 10⟩] [⟨[0, 1, 2]⟩]).to3ds o = .ok d ∧
    DMesh.of3ds d = .ok (dmesh ['p'] [⟨652000, 6862000 + 1 / 2, 0⟩, ⟨652016, 6862000, 0⟩, ⟨652016, 6862016, 10⟩] [⟨[0, 1, 2]⟩]) := by
  have S : ∀ (N n : ℤ) {q : ℚ}, |n| ≤ N → q = n * 2 ^ (-1 : ℤ) → Scaled (-1) N q := fun N n q h e => ⟨n, h, e⟩
  refine C91_triangles_partial o (-1) (by norm_num) (by norm_num) _ _ _ ?_ ⟨by decide, by simp [dmesh]⟩ ?_ ?_ (by decide) ?_ ?_
  · intro p hp
    simp only [List.mem_cons, List.not_mem_nil, or_false] at hp
    rcases hp with rfl | rfl | rfl
    · exact ⟨S _ 1304000 (by norm_num) (by norm_num), S _ 13724001 (by norm_num) (by norm_num), S _ 0 (by norm_num) (by norm_num)⟩
    · exact ⟨S _ 1304032 (by norm_num) (by norm_num), S _ 13724000 (by norm_num) (by norm_num), S _ 0 (by norm_num) (by norm_num)⟩
    · exact ⟨S _ 1304032 (by norm_num) (by norm_num), S _ 13724032 (by norm_num) (by norm_num), S _ 20 (by norm_num) (by norm_num)⟩
  · intro f hf
    simp only [dmesh, List.mem_singleton] at hf
    subst hf
    simp [Face.degree, dmesh]
  · intro f hf
    simp only [List.mem_singleton] at hf
    subst hf
    rfl
  · intro f hf i hi j hj
    simp only [List.mem_singleton] at hf
    subst hf
    have z : Scaled (-1) (2 ^ 12) 0 := S _ 0 (by norm_num) (by norm_num)
    have d1 : Scaled (-1) (2 ^ 12) 16 := S _ 32 (by norm_num) (by norm_num)
    have d2 : Scaled (-1) (2 ^ 12) (1 / 2) := S _ 1 (by norm_num) (by norm_num)
    have d3 : Scaled (-1) (2 ^ 12) (31 / 2) := S _ 31 (by norm_num) (by norm_num)
    have d4 : Scaled (-1) (2 ^ 12) 10 := S _ 20 (by norm_num) (by norm_num)
    have m1 := d1.neg
    have m2 := d2.neg
    have m3 := d3.neg
    have m4 := d4.neg
    simp only [List.mem_cons, List.not_mem_nil, or_false] at hi hj
    rcases hi with rfl | rfl | rfl <;> rcases hj with rfl | rfl | rfl <;> refine ⟨?_, ?_, ?_⟩ <;> simp only [V3.sub, pt, List.getD_cons_zero, List.getD_cons_succ] <;> norm_num <;>
      norm_num at m1 m2 m3 m4 <;> assumption
  · intro f hf
    simp only [List.mem_singleton] at hf
    subst hf
    refine Real.le_sqrt_of_sq_le ?_
    simp only [V3.dot, V3.cross, V3.sub, realPoint, pt, List.getD_cons_zero, List.getD_cons_succ]
    norm_num

end City.Props
