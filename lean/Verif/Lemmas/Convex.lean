import Verif.Lemmas.Face
import Mathlib.Data.List.GetD
set_option linter.unusedSectionVars false
namespace City.Spec
open City V3

section
variable {K : Type} [Field K] [LinearOrder K]

theorem window_eq {p : List Nat} {i : Nat} (hd : 3 ≤ p.length) (hi : i < p.length) :
    Face.window p i = (p.getD (i % p.length) 0, p.getD ((i + 1) % p.length) 0,
      p.getD ((i + 2) % p.length) 0) := by
  unfold Face.window
  simp only
  rw [Nat.mod_eq_of_lt hi]
  split
  · rename_i h
    have e1 : (i + 1) % p.length = i + 1 := Nat.mod_eq_of_lt (by omega)
    have e2 : (i + 2) % p.length = 0 := by
      have : i + 2 = p.length := by omega
      rw [this, Nat.mod_self]
    rw [e1, e2]
  · split
    · rename_i h
      have e1 : (i + 1) % p.length = 0 := by
        have : i + 1 = p.length := by omega
        rw [this, Nat.mod_self]
      have e2 : (i + 2) % p.length = 1 := by
        have : i + 2 = 1 + p.length := by omega
        rw [this, Nat.add_mod_right, Nat.mod_eq_of_lt (by omega)]
      rw [e1, e2]
    · rw [Nat.mod_eq_of_lt (a := i + 1) (by omega), Nat.mod_eq_of_lt (a := i + 2) (by omega)]

theorem Resolves.length {f : Face} {co vs : List (V3 K)} (h : Resolves f co vs) :
    f.points.length = vs.length := List.Forall₂.length_eq h

theorem Resolves.at {f : Face} {co vs : List (V3 K)} (h : Resolves f co vs) (hd : 0 < f.points.length)
    (i : Nat) : Out.atOr co (f.points.getD (i % f.points.length) 0) = .ok (cyc vs i) := by
  have hl := h.length
  have hi : i % f.points.length < f.points.length := Nat.mod_lt _ hd
  have := (List.forall₂_iff_get.1 h).2 (i % f.points.length) hi (by omega)
  rw [Out.atOr_eq_ok, List.getD_eq_getElem _ _ hi]
  simp only [List.get_eq_getElem] at this
  rw [this, cyc, List.getD_eq_getElem _ _ (by rw [← hl]; exact hi)]
  simp only [hl]

theorem convexLoop_ok {co : List (V3 K)} {n : V3 K} {ts : List (Nat × Nat × Nat)}
    {g : Nat × Nat × Nat → Bool} (h : ∀ t ∈ ts, Face.turnOk co n t = .ok (g t)) :
    Face.convexLoop co n ts = .ok (ts.all g) := by
  induction ts with
  | nil => rfl
  | cons t ts ih =>
    rw [Face.convexLoop, h t (by simp), Out.ok_bind]
    cases hg : g t
    · simp [hg]
    · simp [hg, ih (fun t ht => h t (by simp [ht]))]

/-- Turn expression of the code at vertex `i`. -/
def codeTurn (vs : List (V3 K)) (i : Nat) : K :=
  dot (cross (vec (cyc vs i) (cyc vs (i + 1)))
    (cross (vec (cyc vs 0) (cyc vs 1)) (vec (cyc vs 1) (cyc vs 2))))
    (vec (cyc vs (i + 1)) (cyc vs (i + 2)))

theorem isConvex_eq {f : Face} {co vs : List (V3 K)} (h : Resolves f co vs)
    (hco : f.points.length ≤ co.length) (hd : 3 < f.points.length) :
    Face.isConvex f co = .ok (decide (∀ i < vs.length, codeTurn vs i < 0)) := by
  have hl := h.length
  have h0 : 0 < f.points.length := by omega
  have at0 := h.at h0 0
  have at1 := h.at h0 1
  have at2 := h.at h0 2
  rw [Nat.mod_eq_of_lt (by omega)] at at0 at1 at2
  unfold Face.isConvex
  simp only
  rw [if_neg (by omega), if_neg (by omega), if_pos hd, at0, Out.ok_bind, at1, Out.ok_bind, at2,
    Out.ok_bind]
  have hmap : (List.range f.points.length).map (Face.window f.points)
      = (List.range f.points.length).map (fun i => (f.points.getD (i % f.points.length) 0,
          f.points.getD ((i + 1) % f.points.length) 0, f.points.getD ((i + 2) % f.points.length) 0)) := by
    apply List.map_congr_left
    intro i hi
    exact window_eq (by omega) (List.mem_range.1 hi)
  rw [hmap]
  -- the loop
  have loop : ∀ is : List Nat, Face.convexLoop co
      (cross (vec (cyc vs 0) (cyc vs 1)) (vec (cyc vs 1) (cyc vs 2)))
      (is.map (fun i => (f.points.getD (i % f.points.length) 0,
          f.points.getD ((i + 1) % f.points.length) 0, f.points.getD ((i + 2) % f.points.length) 0)))
      = .ok (is.all fun i => decide (codeTurn vs i < 0)) := by
    intro is
    induction is with
    | nil => rfl
    | cons i is ih =>
      rw [List.map_cons, Face.convexLoop, Face.turnOk]
      simp only [h.at h0, Out.ok_bind, List.all_cons]
      show (if (decide (codeTurn vs i < 0)) = true then _ else _) = _
      cases hg : decide (codeTurn vs i < 0)
      · simp
      · rw [if_pos rfl, ih, Bool.true_and]
  rw [loop]
  congr 1
  rw [Bool.eq_iff_iff]
  simp [hl]

theorem codeTurn_neg_iff [IsStrictOrderedRing K] (vs : List (V3 K)) (i : Nat) :
    codeTurn vs i < 0 ↔
      0 < dot (cross (sub (cyc vs 1) (cyc vs 0)) (sub (cyc vs 2) (cyc vs 0)))
        (cross (sub (cyc vs (i + 1)) (cyc vs i)) (sub (cyc vs (i + 2)) (cyc vs i))) := by
  have : codeTurn vs i = - dot (cross (sub (cyc vs 1) (cyc vs 0)) (sub (cyc vs 2) (cyc vs 0)))
        (cross (sub (cyc vs (i + 1)) (cyc vs i)) (sub (cyc vs (i + 2)) (cyc vs i))) := by
    simp only [codeTurn, dot, cross, vec, sub]; ring
  rw [this, neg_lt_zero]

theorem dot_self_pos' [IsStrictOrderedRing K] {v : V3 K} (h : v ≠ zero) : 0 < dot v v := by
  by_contra hn
  apply h
  have h0 : v.x * v.x + v.y * v.y + v.z * v.z ≤ 0 := not_lt.1 hn
  have hx : v.x = 0 := by nlinarith [mul_self_nonneg v.x, mul_self_nonneg v.y, mul_self_nonneg v.z]
  have hy : v.y = 0 := by nlinarith [mul_self_nonneg v.x, mul_self_nonneg v.y, mul_self_nonneg v.z]
  have hz : v.z = 0 := by nlinarith [mul_self_nonneg v.x, mul_self_nonneg v.y, mul_self_nonneg v.z]
  ext <;> simp [hx, hy, hz, zero]

omit [LinearOrder K] in
/-- In a plane with normal `N`, cross products are multiples of `N`. -/
theorem planar_dot {N u w c : V3 K} (hu : dot N u = 0) (hw : dot N w = 0) :
    dot N N * dot (cross u w) c = dot N (cross u w) * dot N c := by
  have : dot N N * dot (cross u w) c - dot N (cross u w) * dot N c
      = dot (cross N (sub (smul (dot N u) w) (smul (dot N w) u))) c := by
    simp only [dot, cross, sub, smul]; ring
  rw [hu, hw] at this
  have z : dot (cross N (sub (smul 0 w) (smul 0 u))) c = 0 := by
    simp only [dot, cross, sub, smul]; ring
  rw [z] at this
  exact sub_eq_zero.1 this

theorem cyc_mem {vs : List (V3 K)} (h : vs ≠ []) (i : Nat) : cyc vs i ∈ vs := by
  have : i % vs.length < vs.length := Nat.mod_lt _ (List.length_pos_iff.2 h)
  rw [cyc, List.getD_eq_getElem _ _ this]
  exact List.getElem_mem _

theorem cyc_mod (vs : List (V3 K)) (i : Nat) : cyc vs (i % vs.length) = cyc vs i := by
  simp [cyc]

theorem cyc_add_length (vs : List (V3 K)) (i : Nat) : cyc vs (i + vs.length) = cyc vs i := by
  simp [cyc]

theorem cyc_congr (vs : List (V3 K)) {i j : Nat} (h : i % vs.length = j % vs.length) :
    cyc vs i = cyc vs j := by
  simp [cyc, h]

/-- For a planar polygon, the answer of `is_convex` is local convexity. -/
theorem isConvex_iff_local [IsStrictOrderedRing K] {f : Face} {co vs : List (V3 K)} (h : Resolves f co vs)
    (hco : f.points.length ≤ co.length) (hd : 3 < f.points.length)
    (hpl : ∃ N, PlanarWith N vs) :
    Face.isConvex f co = .ok true ↔ LocallyConvex vs := by
  have hl := h.length
  have hne : vs ≠ [] := by rintro rfl; simp at hl; simp [hl] at hd
  rw [isConvex_eq h hco hd, Out.ok.injEq, decide_eq_true_iff]
  constructor
  · intro hc
    refine ⟨cross (sub (cyc vs 1) (cyc vs 0)) (sub (cyc vs 2) (cyc vs 0)), ⟨?_, ?_⟩, ?_⟩
    · intro h0
      have := (codeTurn_neg_iff vs 0).1 (hc 0 (by omega))
      simp only [Nat.zero_add] at this
      rw [h0] at this
      simp [dot, zero] at this
    · intro v hv w hw
      obtain ⟨N, hN0, hN⟩ := hpl
      have hp := dot_self_pos' hN0
      have e := planar_dot (c := sub v w) (hN _ (cyc_mem hne 1) _ (cyc_mem hne 0))
        (hN _ (cyc_mem hne 2) _ (cyc_mem hne 0))
      rw [hN v hv w hw, mul_zero] at e
      exact (mul_eq_zero.1 e).resolve_left hp.ne'
    · intro i
      have := (codeTurn_neg_iff vs (i % vs.length)).1 (hc _ (Nat.mod_lt _ (by omega)))
      rw [cyc_mod, cyc_congr vs (i := i % vs.length + 1) (j := i + 1) (by simp),
        cyc_congr vs (i := i % vs.length + 2) (j := i + 2) (by simp)] at this
      exact this
  · rintro ⟨N, ⟨hN0, hN⟩, hleft⟩ i hi
    rw [codeTurn_neg_iff]
    have hp := dot_self_pos' hN0
    have e := planar_dot (c := cross (sub (cyc vs (i + 1)) (cyc vs i)) (sub (cyc vs (i + 2)) (cyc vs i)))
      (hN _ (cyc_mem hne 1) _ (cyc_mem hne 0)) (hN _ (cyc_mem hne 2) _ (cyc_mem hne 0))
    have h1 := hleft 0
    have h2 := hleft i
    simp only [Left, Nat.zero_add] at h1 h2
    have := mul_pos h1 h2
    rw [← e] at this
    exact (pos_iff_pos_of_mul_pos this).1 hp

theorem cyc_rotate {vs : List (V3 K)} (hne : vs ≠ []) (n i : Nat) : cyc (vs.rotate n) i = cyc vs (i + n) := by
  have hp : 0 < vs.length := List.length_pos_iff.2 hne
  have h1 : i % vs.length < vs.length := Nat.mod_lt _ hp
  have h2 : (i + n) % vs.length < vs.length := Nat.mod_lt _ hp
  unfold cyc
  rw [List.length_rotate, List.getD_eq_getElem _ _ (by simpa using h1), List.getD_eq_getElem _ _ h2,
    List.getElem_rotate]
  simp [Nat.add_mod]

theorem PlanarWith.perm {N : V3 K} {vs ws : List (V3 K)} (h : PlanarWith N vs) (hp : ∀ v, v ∈ ws → v ∈ vs) :
    PlanarWith N ws := ⟨h.1, fun v hv w hw => h.2 v (hp v hv) w (hp w hw)⟩

theorem LocallyConvex.rotate {vs : List (V3 K)} (hne : vs ≠ []) (n : Nat) (h : LocallyConvex vs) :
    LocallyConvex (vs.rotate n) := by
  obtain ⟨N, hN, hl⟩ := h
  refine ⟨N, hN.perm (by simp), fun i => ?_⟩
  rw [cyc_rotate hne, cyc_rotate hne, cyc_rotate hne]
  have := hl (i + n)
  rwa [show i + 1 + n = i + n + 1 by omega, show i + 2 + n = i + n + 2 by omega]

theorem LocallyConvex.rotate_iff {vs : List (V3 K)} (hne : vs ≠ []) (n : Nat) :
    LocallyConvex (vs.rotate n) ↔ LocallyConvex vs := by
  constructor
  · intro h
    have hp : 0 < vs.length := List.length_pos_iff.2 hne
    have hr := h.rotate (by simpa using hne) (vs.length - n % vs.length)
    rw [List.rotate_rotate] at hr
    have hm : n % vs.length < vs.length := Nat.mod_lt _ hp
    have : vs.rotate (n + (vs.length - n % vs.length)) = vs := by
      rw [← List.rotate_mod]
      have : (n + (vs.length - n % vs.length)) % vs.length = 0 := by
        have hdm := Nat.div_add_mod n vs.length
        have : n + (vs.length - n % vs.length) = vs.length * (n / vs.length + 1) := by
          rw [Nat.mul_add, Nat.mul_one]; omega
        rw [this, Nat.mul_mod_right]
      rw [this, List.rotate_zero]
    rwa [this] at hr
  · exact LocallyConvex.rotate hne n

/-- reversing the order of the vertices -/
theorem cyc_reverse {vs : List (V3 K)} (hne : vs ≠ []) (i k : Nat) (h : (i + k + 1) % vs.length = 0) :
    cyc vs.reverse i = cyc vs k := by
  have hp : 0 < vs.length := List.length_pos_iff.2 hne
  have h1 : i % vs.length < vs.length := Nat.mod_lt _ hp
  have h2 : k % vs.length < vs.length := Nat.mod_lt _ hp
  unfold cyc
  rw [List.length_reverse, List.getD_eq_getElem _ _ (by simpa using h1), List.getD_eq_getElem _ _ h2,
    List.getElem_reverse]
  congr 1
  have e : (i % vs.length + k % vs.length + 1) % vs.length = 0 := by
    rw [← h]; simp [Nat.add_mod]
  obtain ⟨q, hq⟩ := Nat.dvd_of_mod_eq_zero e
  have : q = 1 := by
    have : q ≠ 0 := by rintro rfl; simp at hq
    have : q < 2 := by
      by_contra hc
      have : vs.length * 2 ≤ vs.length * q := Nat.mul_le_mul_left _ (by omega)
      omega
    omega
  subst this
  omega

theorem LocallyConvex.reverse [IsStrictOrderedRing K] {vs : List (V3 K)} (hne : vs ≠ [])
    (h : LocallyConvex vs) : LocallyConvex vs.reverse := by
  have hp : 0 < vs.length := List.length_pos_iff.2 hne
  obtain ⟨N, hN, hl⟩ := h
  have hN' : PlanarWith (neg N) vs := by
    refine ⟨?_, fun v hv w hw => ?_⟩
    · intro h0
      apply hN.1
      have hx := congrArg V3.x h0; have hy := congrArg V3.y h0; have hz := congrArg V3.z h0
      simp only [neg, zero, neg_eq_zero] at hx hy hz
      ext <;> simp [zero, hx, hy, hz]
    · have := hN.2 v hv w hw
      simp only [dot, neg, sub] at this ⊢
      linear_combination -this
  refine ⟨neg N, hN'.perm (by simp), fun i => ?_⟩
  -- index k with i + 2 matching k
  obtain ⟨k, hk⟩ : ∃ k, (i + 2 + k + 1) % vs.length = 0 := by
    refine ⟨(i + 3) * vs.length - (i + 3), ?_⟩
    have : i + 3 ≤ (i + 3) * vs.length := Nat.le_mul_of_pos_right _ hp
    have e : i + 2 + ((i + 3) * vs.length - (i + 3)) + 1 = (i + 3) * vs.length := by omega
    rw [e, Nat.mul_mod_left]
  rw [cyc_reverse hne (i + 2) k hk, cyc_reverse hne (i + 1) (k + 1) (by rw [← hk]; congr 1; omega),
    cyc_reverse hne i (k + 2) (by rw [← hk]; congr 1; omega)]
  have := hl k
  simp only [Left] at this ⊢
  have e : dot (neg N) (cross (sub (cyc vs (k + 1)) (cyc vs (k + 2))) (sub (cyc vs k) (cyc vs (k + 2))))
      = dot N (cross (sub (cyc vs (k + 1)) (cyc vs k)) (sub (cyc vs (k + 2)) (cyc vs k))) := by
    simp only [dot, neg, cross, sub]; ring
  rw [e]; exact this

end
end City.Spec
