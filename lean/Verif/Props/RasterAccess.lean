import Verif.Props.Raster
/-!
C53-C56: access to pixels, vertical offset, equality and the round trip through a GDAL dataset.
-/
set_option linter.unusedSectionVars false
namespace City.Props
open City City.Spec City.FacePrint

section
variable {K : Type} [Field K] [LinearOrder K] [IsStrictOrderedRing K] [FloorRing K]

/-- A raster with one value and one hit count per pixel. -/
def Raster.Wf (r : Raster K) : Prop := r.image.length = r.height * r.width ∧ r.hits.length = r.height * r.width

/-- The values of the image row by row, from the top: this, and not an index computation, is what a user means by row and column. -/
def HasRows (r : Raster K) (rows : List (List K)) : Prop :=
  r.image = rows.flatten ∧ rows.length = r.height ∧ ∀ row ∈ rows, row.length = r.width

/-- The same for the hit counts. -/
def HasHits (r : Raster K) (rows : List (List Int)) : Prop :=
  r.hits = rows.flatten ∧ rows.length = r.height ∧ ∀ row ∈ rows, row.length = r.width

theorem flatten_get {α : Type} {w : Nat} : ∀ (rows : List (List α)), (∀ row ∈ rows, row.length = w) → ∀ (i j : Nat), j < w →
    rows.flatten[i * w + j]? = rows[i]?.bind fun row => row[j]?
  | [], _, i, j, _ => by simp
  | row :: rows, h, 0, j, hj => by
    have := h row List.mem_cons_self
    simp only [List.flatten_cons, Nat.zero_mul, Nat.zero_add, List.getElem?_cons_zero, Option.bind_some]
    rw [List.getElem?_append_left (by omega)]
  | row :: rows, h, i + 1, j, hj => by
    have hr := h row List.mem_cons_self
    rw [List.flatten_cons, List.getElem?_append_right (by rw [hr, Nat.succ_mul]; omega), hr,
      show (i + 1) * w + j - w = i * w + j by rw [Nat.succ_mul]; omega, List.getElem?_cons_succ]
    exact flatten_get rows (fun r hr => h r (List.mem_cons_of_mem _ hr)) i j hj

theorem flatten_len {α : Type} {w : Nat} : ∀ (rows : List (List α)), (∀ row ∈ rows, row.length = w) → rows.flatten.length = rows.length * w
  | [], _ => by simp
  | row :: rows, h => by
    rw [List.flatten_cons, List.length_append, h row List.mem_cons_self,
      flatten_len rows (fun r hr => h r (List.mem_cons_of_mem _ hr)), List.length_cons, Nat.succ_mul, Nat.add_comm]

/-- C53, as it is stated: reading in row `i` and column `j` gives that pixel, or throws when there is no such row or column. -/
def C53_full : Prop := ∀ (r : Raster ℚ) (rows : List (List ℚ)) (hrows : List (List Int)), HasRows r rows → HasHits r hrows → ∀ i j,
  (∀ v, (rows[i]?.bind fun row => row[j]?) = some v → r.at' i j = .ok v) ∧
  (∀ n, (hrows[i]?.bind fun row => row[j]?) = some n → r.hit i j = .ok n) ∧
  (¬ (i < r.height ∧ j < r.width) → r.at' i j = .thrown .outOfRange ∧ r.hit i j = .thrown .outOfRange)

/-- C53 is false: the guard asks for both indexes to be too large, so column 2 of row 0 of a two by two image is column 0 of row 1. -/
theorem C53_refuted : ¬ C53_full := by
  intro h
  have := (h ⟨[], ⟨0, 0, 0⟩, 2154, 2, 2, 1, [1, 2, 3, 4], [0, 0, 0, 0], true⟩ [[1, 2], [3, 4]] [[0, 0], [0, 0]]
    ⟨rfl, rfl, by decide⟩ ⟨rfl, rfl, by decide⟩ 0 2).2.2 (by decide)
  exact absurd this.1 (by decide +kernel)

/-- C53, the part that holds: inside the image, `at` and `hit` give the pixel of that row and column. -/
theorem C53_inside_partial (r : Raster K) (rows : List (List K)) (hrows : List (List Int)) (hr : HasRows r rows) (hh : HasHits r hrows)
    (i j : Nat) (hi : i < r.height) (hj : j < r.width) :
    ∃ row hrow v n, rows[i]? = some row ∧ row[j]? = some v ∧ hrows[i]? = some hrow ∧ hrow[j]? = some n ∧
      r.at' i j = .ok v ∧ r.hit i j = .ok n := by
  obtain ⟨r1, r2, r3⟩ := hr
  obtain ⟨q1, q2, q3⟩ := hh
  obtain ⟨row, hrow⟩ := getElem?_of_lt (l := rows) (k := i) (by omega)
  obtain ⟨hrow', hrow''⟩ := getElem?_of_lt (l := hrows) (k := i) (by omega)
  obtain ⟨v, hv⟩ := getElem?_of_lt (l := row) (k := j) (by rw [r3 row (List.mem_of_getElem? hrow)]; exact hj)
  obtain ⟨n, hn⟩ := getElem?_of_lt (l := hrow') (k := j) (by rw [q3 hrow' (List.mem_of_getElem? hrow'')]; exact hj)
  refine ⟨row, hrow', v, n, hrow, hv, hrow'', hn, ?_, ?_⟩
  · unfold Raster.at'
    rw [if_neg (by omega)]
    refine Out.atOr_eq_ok.2 ?_
    rw [r1, flatten_get rows r3 i j hj, hrow, Option.bind_some, hv]
  · unfold Raster.hit
    rw [if_neg (by omega)]
    refine Out.atOr_eq_ok.2 ?_
    rw [q1, flatten_get hrows q3 i j hj, hrow'', Option.bind_some, hn]

/-- C53, what happens for all other indexes: the exception is thrown exactly when `i` times the width plus `j` is not below the number of pixels;
otherwise a column that is too large is carried into the rows below. -/
theorem C53_outside_partial (r : Raster K) (h : Raster.Wf r) (i j : Nat) :
    (r.height * r.width ≤ i * r.width + j → r.at' i j = .thrown .outOfRange ∧ r.hit i j = .thrown .outOfRange) ∧
    (i * r.width + j < r.height * r.width → 0 < r.width ∧ i + j / r.width < r.height ∧
      r.at' i j = r.at' (i + j / r.width) (j % r.width) ∧ r.hit i j = r.hit (i + j / r.width) (j % r.width) ∧
      (∃ v, r.at' i j = .ok v) ∧ ∃ n, r.hit i j = .ok n) := by
  obtain ⟨h1, h2⟩ := h
  constructor
  · intro hge
    constructor
    · unfold Raster.at'
      split
      · rfl
      · unfold Out.atOr
        rw [List.getElem?_eq_none (by omega)]
    · unfold Raster.hit
      split
      · rfl
      · unfold Out.atOr
        rw [List.getElem?_eq_none (by omega)]
  · intro hlt
    have hw : 0 < r.width := by
      rcases Nat.eq_zero_or_pos r.width with h0 | h0
      · rw [h0] at hlt; simp at hlt
      · exact h0
    have hkey : (i + j / r.width) * r.width + j % r.width = i * r.width + j := by
      have := Nat.div_add_mod j r.width
      rw [Nat.add_mul, Nat.mul_comm (j / r.width)]
      omega
    have hi : i + j / r.width < r.height := by
      by_contra hc
      have : r.height * r.width ≤ (i + j / r.width) * r.width := Nat.mul_le_mul_right _ (by omega)
      omega
    have hih : i < r.height := lt_of_le_of_lt (Nat.le_add_right _ _) hi
    obtain ⟨v, hv⟩ := getElem?_of_lt (l := r.image) (k := i * r.width + j) (by omega)
    obtain ⟨n, hn⟩ := getElem?_of_lt (l := r.hits) (k := i * r.width + j) (by omega)
    refine ⟨hw, hi, ?_, ?_, ⟨v, ?_⟩, n, ?_⟩
    · unfold Raster.at'
      rw [if_neg (by omega), if_neg (by omega), hkey]
    · unfold Raster.hit
      rw [if_neg (by omega), if_neg (by omega), hkey]
    · unfold Raster.at'
      rw [if_neg (by omega)]
      exact Out.atOr_eq_ok.2 hv
    · unfold Raster.hit
      rw [if_neg (by omega)]
      exact Out.atOr_eq_ok.2 hn

/-- C53: an assignment to a pixel of the image changes this pixel and no other, and no hit count. -/
theorem C53_write (r : Raster K) (h : Raster.Wf r) (i j : Nat) (hi : i < r.height) (hj : j < r.width) (v : K) :
    ∃ r', r.put i j v = .ok r' ∧ Raster.Wf r' ∧ r'.height = r.height ∧ r'.width = r.width ∧ r'.at' i j = .ok v ∧
      (∀ i' < r.height, ∀ j' < r.width, (i', j') ≠ (i, j) → r'.at' i' j' = r.at' i' j') ∧ (∀ i' j', r'.hit i' j' = r.hit i' j') := by
  obtain ⟨h1, h2⟩ := h
  have hk := key_lt hi hj
  obtain ⟨u, hu⟩ := getElem?_of_lt (l := r.image) (k := i * r.width + j) (by omega)
  refine ⟨{ r with image := r.image.set (i * r.width + j) v }, ?_, ⟨by simp [h1], h2⟩, rfl, rfl, ?_, ?_, fun _ _ => rfl⟩
  · unfold Raster.put Raster.at'
    rw [if_neg (by omega), Out.atOr_eq_ok.2 hu, Out.ok_bind]
  · unfold Raster.at'
    rw [if_neg (by show ¬ (i > r.height ∧ j > r.width); omega)]
    exact Out.atOr_eq_ok.2 (List.getElem?_set_self (by omega))
  · intro i' hi' j' hj' hne
    unfold Raster.at'
    rw [if_neg (by show ¬ (i' > r.height ∧ j' > r.width); omega), if_neg (by omega)]
    dsimp only
    unfold Out.atOr
    rw [List.getElem?_set_ne]
    intro he
    obtain ⟨rfl, rfl⟩ := key_inj hj hj' he
    exact hne rfl

/-- `vertical_offset` called `n` times. -/
def offsets (r : Raster K) : Nat → Out (Raster K)
  | 0 => .ok r
  | n + 1 => do
    let r' ← offsets r n
    r'.verticalOffset

/-- C54: the first call of `vertical_offset` adds the height of the reference point to exactly the pixels that were hit, and every number of calls
is the same as one. -/
theorem C54_offset (r : Raster K) (h : Raster.Wf r) (h0 : r.offset = false) :
    ∃ r', r.verticalOffset = .ok r' ∧ Raster.Wf r' ∧ r'.offset = true ∧ r'.hits = r.hits ∧ r'.height = r.height ∧ r'.width = r.width ∧
      r'.ref = r.ref ∧ r'.pixel = r.pixel ∧ r'.epsg = r.epsg ∧ r'.name = r.name ∧
      (∀ i < r.height, ∀ j < r.width, ∃ v n, r.at' i j = .ok v ∧ r.hit i j = .ok n ∧ r'.at' i j = .ok (if n = 0 then v else v + r.ref.z)) ∧
      ∀ n, offsets r (n + 1) = .ok r' := by
  obtain ⟨h1, h2⟩ := h
  obtain ⟨img, k1, k2, k3, k4⟩ := offsetLoop_ok r.ref.z r.hits (List.range (r.height * r.width)) r.image List.nodup_range fun k hk => by
    rw [h1, h2]; exact ⟨List.mem_range.1 hk, List.mem_range.1 hk⟩
  have hone : r.verticalOffset = .ok { r with image := img, offset := true } := by
    unfold Raster.verticalOffset
    rw [if_neg (by simp [h0]), k1, Out.ok_bind]
  refine ⟨_, hone, ⟨by rw [← h1]; exact k2, h2⟩, rfl, rfl, rfl, rfl, rfl, rfl, rfl, rfl, ?_, ?_⟩
  · intro i hi j hj
    have hk := key_lt hi hj
    obtain ⟨v, hv⟩ := getElem?_of_lt (l := r.image) (k := i * r.width + j) (by omega)
    obtain ⟨n, hn⟩ := getElem?_of_lt (l := r.hits) (k := i * r.width + j) (by omega)
    refine ⟨v, n, ?_, ?_, ?_⟩
    · unfold Raster.at'
      rw [if_neg (by omega)]
      exact Out.atOr_eq_ok.2 hv
    · unfold Raster.hit
      rw [if_neg (by omega)]
      exact Out.atOr_eq_ok.2 hn
    · unfold Raster.at'
      rw [if_neg (by show ¬ (i > r.height ∧ j > r.width); omega)]
      refine Out.atOr_eq_ok.2 ?_
      rw [k4 _ (List.mem_range.2 hk) v n hv hn]
      by_cases hn0 : n = 0 <;> simp [hn0]
  · intro n
    induction n with
    | zero => rw [offsets, offsets, Out.ok_bind, hone]
    | succ n ih =>
      rw [offsets, ih, Out.ok_bind]
      unfold Raster.verticalOffset
      rw [if_pos rfl]

/-- C54: a raster that was offset before is never changed again; those read from a file and those made from a footprint are. -/
theorem C54_done (C : Cgal K) (lr : Bool) (r : Raster K) : (r.offset = true → ∀ n, offsets r n = .ok r) ∧
    (∀ fp p, Raster.ofFootPrint C lr fp p = .ok r → r.offset = true) ∧
    (∀ geog name d, Raster.ofGdal geog name d = .ok r → r.offset = true) := by
  refine ⟨?_, ?_, ?_⟩
  · intro h n
    induction n with
    | zero => rfl
    | succ n ih =>
      rw [offsets, ih, Out.ok_bind]
      unfold Raster.verticalOffset
      rw [if_pos h]
  · intro fp p h
    unfold Raster.ofFootPrint at h
    split at h
    · cases h
    · simp only [Out.bind_eq_ok] at h
      obtain ⟨_, _, _, _, _, _, h⟩ := h
      unfold Raster.verticalOffset at h
      rw [if_neg (by simp)] at h
      obtain ⟨_, _, h⟩ := Out.bind_eq_ok.1 h
      cases h
      rfl
  · intro geog name d h
    unfold Raster.ofGdal at h
    split at h
    · cases h
    · split at h <;> cases h
      rfl

/-- C55, as it is stated: two raster prints are equal exactly when size, reference, EPSG code, pixel size and all pixels agree. -/
def C55_full : Prop := ∀ r o : Raster ℚ, Raster.Wf r → Raster.Wf o →
  (r.eq o = .ok true ↔ r.height = o.height ∧ r.width = o.width ∧ r.ref = o.ref ∧ r.epsg = o.epsg ∧ r.pixel = o.pixel ∧
    ∀ i < r.height, ∀ j < r.width, r.at' i j = o.at' i j)

/-- C55 is false: the comparison of the pixels is computed and not used. -/
theorem C55_refuted : ¬ C55_full := by
  intro h
  have := (h ⟨[], ⟨0, 0, 0⟩, 2154, 1, 1, 1, [1], [1], true⟩ ⟨[], ⟨0, 0, 0⟩, 2154, 1, 1, 1, [2], [1], true⟩ ⟨rfl, rfl⟩ ⟨rfl, rfl⟩).1
    (by decide +kernel)
  have h2 := this.2.2.2.2.2 0 (by decide) 0 (by decide)
  exact absurd h2 (by decide +kernel)

theorem eps_pos' : (0 : K) < eps := by unfold eps; positivity

/-- C55, the part that holds: `==` decides whether sizes, references and EPSG codes are the same and the pixel sizes differ by less than a tiny
amount; hence prints that agree in everything are equal, and a difference in one of these is always seen. -/
theorem C55_metadata_partial (r o : Raster K) (hr : Raster.Wf r) (ho : Raster.Wf o) :
    ∃ b, r.eq o = .ok b ∧
      (b = true ↔ r.height = o.height ∧ r.width = o.width ∧ r.ref = o.ref ∧ r.epsg = o.epsg ∧ |r.pixel - o.pixel| < 1 / 2 ^ 52) := by
  by_cases h : r.equalMetadata o = true
  · have h' := h
    unfold Raster.equalMetadata at h'
    simp only [Bool.and_eq_true, decide_eq_true_eq] at h'
    obtain ⟨⟨⟨⟨h1, h2⟩, h3⟩, h4⟩, h5⟩ := h'
    refine ⟨true, ?_, ?_⟩
    · unfold Raster.eq
      rw [if_pos h, if_pos (by rw [hr.1, ho.1, h4, h5])]
    · simp only [true_iff]
      exact ⟨h4, h5, h2, h3, h1⟩
  · refine ⟨false, ?_, ?_⟩
    · unfold Raster.eq
      rw [if_neg h]
    · simp only [Bool.false_eq_true, false_iff]
      rintro ⟨h4, h5, h2, h3, h1⟩
      apply h
      unfold Raster.equalMetadata
      simp only [Bool.and_eq_true, decide_eq_true_eq]
      exact ⟨⟨⟨⟨h1, h2⟩, h3⟩, h4⟩, h5⟩

/-- C55: `==` is reflexive and symmetric. -/
theorem C55_refl_symm_partial (r o : Raster K) (hr : Raster.Wf r) (ho : Raster.Wf o) : r.eq r = .ok true ∧ r.eq o = o.eq r := by
  constructor
  · obtain ⟨b, h1, h2⟩ := C55_metadata_partial r r hr hr
    rw [h1, h2.2 ⟨rfl, rfl, rfl, rfl, by simp⟩]
  · obtain ⟨b, h1, h2⟩ := C55_metadata_partial r o hr ho
    obtain ⟨c, h3, h4⟩ := C55_metadata_partial o r ho hr
    rw [h1, h3]
    congr 1
    rw [Bool.eq_iff_iff, h2, h4]
    constructor <;> rintro ⟨a1, a2, a3, a4, a5⟩ <;> exact ⟨a1.symm, a2.symm, a3.symm, a4.symm, by rw [abs_sub_comm]; exact a5⟩

/-- C56, the part that holds: what is read from the dataset that was written has the size, the pixel size, the horizontal position and all the pixels
of the raster; its reference height is 0 and every hit count is 1. -/
theorem C56_partial (geog : Option Nat → Int) (name : Text) (r : Raster K) (hr : Raster.Wf r) :
    ∃ o, Raster.ofGdal geog name r.toGdal = .ok o ∧ Raster.Wf o ∧ o.name = name ∧ o.height = r.height ∧ o.width = r.width ∧ o.pixel = r.pixel ∧
      o.ref = ⟨r.ref.x, r.ref.y, 0⟩ ∧ o.offset = true ∧
      (∀ i j, o.at' i j = r.at' i j) ∧ (∀ i < r.height, ∀ j < r.width, o.hit i j = .ok 1) ∧
      (geog (some r.epsg) = r.epsg → 0 < r.epsg → r.epsg < 2 ^ 16 → o.epsg = r.epsg) ∧ (geog (some r.epsg) ≤ 0 → o.epsg = 2154) := by
  refine ⟨⟨name, ⟨r.ref.x, r.ref.y, 0⟩, if geog (some r.epsg) > 0 then (geog (some r.epsg)).toNat % 2 ^ 16 else 2154, r.height, r.width,
    r.pixel, r.image, List.replicate (r.height * r.width) 1, true⟩, ?_, ⟨hr.1, by simp⟩, rfl, rfl, rfl, rfl, rfl, rfl, fun _ _ => rfl, ?_, ?_, ?_⟩
  · unfold Raster.ofGdal Raster.toGdal
    dsimp only
    rw [if_neg (by rw [add_neg_cancel, abs_zero]; exact not_lt.2 eps_pos'.le)]
  · intro i hi j hj
    have hk := key_lt hi hj
    unfold Raster.hit
    rw [if_neg (by show ¬ (i > r.height ∧ j > r.width); omega)]
    exact Out.atOr_eq_ok.2 (by simp [hk])
  · intro h1 h2 h3
    show (if geog (some r.epsg) > 0 then (geog (some r.epsg)).toNat % 2 ^ 16 else 2154) = r.epsg
    rw [h1, if_pos (by exact_mod_cast h2), Int.toNat_natCast, Nat.mod_eq_of_lt h3]
  · intro h1
    show (if geog (some r.epsg) > 0 then (geog (some r.epsg)).toNat % 2 ^ 16 else 2154) = 2154
    rw [if_neg (by omega)]

/-- C56: a dataset without square, upright pixels is refused, one without geotransform too; nothing else is. -/
theorem C56_refused (geog : Option Nat → Int) (name : Text) (d : Raster.Dataset K) :
    (d.gt = none → Raster.ofGdal geog name d = .thrown .runtimeError) ∧
    (∀ x p a y b q, d.gt = some (x, p, a, y, b, q) →
      (1 / 2 ^ 52 < |p + q| → Raster.ofGdal geog name d = .thrown .logicError) ∧
      (|p + q| ≤ 1 / 2 ^ 52 → ∃ o, Raster.ofGdal geog name d = .ok o ∧ o.ref = ⟨x, y, 0⟩ ∧ o.pixel = p)) := by
  constructor
  · intro h
    unfold Raster.ofGdal
    rw [h]
  · intro x p a y b q h
    unfold Raster.ofGdal
    rw [h]
    dsimp only
    constructor
    · intro hq
      rw [if_pos (show |p + q| > eps from hq)]
    · intro hq
      rw [if_neg (not_lt.2 (show |p + q| ≤ eps from hq))]
      exact ⟨_, rfl, rfl, rfl⟩

end

/-- C56, as it is stated, for the EPSG codes too: what is read is what was written. `geog` is the code of the geographic system of a
projected system: 2154 (Lambert 93) is based on 4171 (RGF93). -/
def C56_full : Prop := ∀ (geog : Option Nat → Int), geog (some 2154) = 4171 → ∀ (r : Raster ℚ), Raster.Wf r → r.epsg < 2 ^ 16 →
  ∃ o, Raster.ofGdal geog r.name r.toGdal = .ok o ∧ o.height = r.height ∧ o.width = r.width ∧ o.pixel = r.pixel ∧
    (∀ i j, o.at' i j = r.at' i j) ∧ o.ref = r.ref ∧ o.epsg = r.epsg

/-- A raster at height 50. -/
def tile : Raster ℚ := ⟨[], ⟨100, 202, 50⟩, 2154, 1, 2, 2, [55, 0], [2, 0], true⟩

/-- C56 is false: the height of the reference point and the EPSG code are lost. -/
theorem C56_refuted : ¬ C56_full := by
  intro h
  obtain ⟨o, h1, -, -, -, -, h2, -⟩ := h (fun _ => 4171) rfl tile ⟨rfl, rfl⟩ (by decide)
  obtain ⟨o', h3, -, -, -, -, -, h4, -⟩ := C56_partial (fun _ => 4171) tile.name tile ⟨rfl, rfl⟩
  rw [h1] at h3
  cases h3
  rw [h2] at h4
  exact absurd h4 (by decide +kernel)

/-- C56: the EPSG code alone is lost as well: a Lambert 93 raster at height 0 is read as RGF93. -/
theorem C56_epsg_refuted : ∃ o, Raster.ofGdal (K := ℚ) (fun _ => 4171) [] { tile with ref := ⟨100, 202, 0⟩ }.toGdal = .ok o ∧ o.epsg = 4171 ∧
    o.epsg ≠ tile.epsg := by
  refine ⟨⟨[], ⟨100, 202, 0⟩, 4171, 1, 2, 2, [55, 0], [1, 1], true⟩, ?_, rfl, by decide⟩
  unfold Raster.ofGdal Raster.toGdal tile
  decide +kernel

/-- C55: three prints, each equal to the next, of which the first is not equal to the last: the tolerance on the pixel size adds up. -/
theorem C55_not_transitive : ∃ a b c : Raster ℚ, Raster.Wf a ∧ Raster.Wf b ∧ Raster.Wf c ∧ a.eq b = .ok true ∧ b.eq c = .ok true ∧ a.eq c = .ok false := by
  refine ⟨{ tile with pixel := 1 }, { tile with pixel := 1 + 1 / 2 ^ 53 }, { tile with pixel := 1 + 1 / 2 ^ 52 }, ⟨rfl, rfl⟩, ⟨rfl, rfl⟩,
    ⟨rfl, rfl⟩, ?_, ?_, ?_⟩ <;> decide +kernel

example : Raster.Wf tile := ⟨rfl, rfl⟩
example : HasRows ({ tile with height := 2, image := [1, 2, 3, 4] } : Raster ℚ) [[1, 2], [3, 4]] := ⟨rfl, rfl, by decide⟩
example : offsets ({ tile with offset := false, image := [5, 0] } : Raster ℚ) 3 = .ok tile := by decide +kernel

/-- C54, C55: the raster print made without arguments has no pixel to read or to count, has not been offset (the first `vertical_offset` only marks
it), and is equal to exactly the prints of no pixel at the origin, in Lambert 93, whose pixels measure 6 cm. -/
theorem C55_default {K : Type} [Field K] [LinearOrder K] [IsStrictOrderedRing K] [FloorRing K] (o : Raster K) (ho : Raster.Wf o) : Raster.Wf (Raster.empty : Raster K) ∧ (Raster.empty : Raster K).name = [] ∧
    (∀ i j, (Raster.empty : Raster K).at' i j = .thrown .outOfRange ∧ (Raster.empty : Raster K).hit i j = .thrown .outOfRange) ∧
    ((Raster.empty : Raster K).offset = false ∧ (Raster.empty : Raster K).verticalOffset = .ok { (Raster.empty : Raster K) with offset := true }) ∧
    ∃ b, (Raster.empty : Raster K).eq o = .ok b ∧
      (b = true ↔ o.height = 0 ∧ o.width = 0 ∧ o.ref = ⟨0, 0, 0⟩ ∧ o.epsg = 2154 ∧ |o.pixel - 6 / 100| < 1 / 2 ^ 52) := by
  have hw : Raster.Wf (Raster.empty : Raster K) := ⟨rfl, rfl⟩
  refine ⟨hw, rfl, fun i j => ⟨?_, ?_⟩, ⟨rfl, rfl⟩, ?_⟩
  · unfold Raster.at'
    split
    · rfl
    · simp [Raster.empty, Out.atOr]
  · unfold Raster.hit
    split
    · rfl
    · simp [Raster.empty, Out.atOr]
  · obtain ⟨b, h1, h2⟩ := C55_metadata_partial Raster.empty o hw ho
    refine ⟨b, h1, h2.trans ?_⟩
    rw [abs_sub_comm]
    simp only [Raster.empty]
    constructor
    · rintro ⟨a, b, c, d, e⟩
      exact ⟨a.symm, b.symm, c.symm, d.symm, e⟩
    · rintro ⟨a, b, c, d, e⟩
      exact ⟨a.symm, b.symm, c.symm, d.symm, e⟩

example : (Raster.empty : Raster ℚ).eq { (Raster.empty : Raster ℚ) with name := "b".toList, hits := [], offset := true } = .ok true := by
  decide +kernel
example : (Raster.empty : Raster ℚ).eq { (Raster.empty : Raster ℚ) with pixel := 1 } = .ok false := by decide +kernel

end City.Props
