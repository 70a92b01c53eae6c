import Verif.Spec.Raster
import Mathlib.Tactic.Linarith
import Mathlib.Tactic.Ring
import Mathlib.Tactic.FieldSimp
import Mathlib.Data.Nat.ModEq
/-!
Lemmas on rasterising: the indexes of a face inside the image, one visit per pixel, the running mean.
-/
set_option linter.unusedSectionVars false
namespace City
open City.Spec FacePrint
variable {K : Type} [Field K] [LinearOrder K] [IsStrictOrderedRing K] [FloorRing K]

/-! ### Sizes -/

theorem toSize_eq_ok {z : ℤ} {n : Nat} : toSize z = .ok n ↔ z = n ∧ z < 2 ^ 64 := by
  unfold toSize
  split
  · rename_i h
    constructor
    · intro e
      cases e
      exact ⟨(Int.toNat_of_nonneg h.1).symm, h.2⟩
    · rintro ⟨rfl, _⟩
      simp
  · rename_i h
    constructor
    · intro e; cases e
    · rintro ⟨rfl, h2⟩
      exact absurd ⟨Int.natCast_nonneg n, h2⟩ h

theorem floorCells_eq_ok {a p : K} {n : Nat} : floorCells a p = .ok n ↔ p ≠ 0 ∧ ⌊a / p⌋ = n ∧ ⌊a / p⌋ < 2 ^ 64 := by
  unfold floorCells
  split
  · simp [*]
  · rename_i h
    rw [toSize_eq_ok]
    simp [h]

theorem ceilCells_eq_ok {a p : K} {n : Nat} : ceilCells a p = .ok n ↔ p ≠ 0 ∧ ⌈a / p⌉ = n ∧ ⌈a / p⌉ < 2 ^ 64 := by
  unfold ceilCells
  split
  · simp [*]
  · rename_i h
    rw [toSize_eq_ok]
    simp [h]

theorem floor_add_ceil_le (a c : K) : ⌊a⌋ + ⌈c⌉ ≤ ⌈a + c⌉ := by
  have : ⌈c⌉ ≤ ⌈a + c⌉ - ⌊a⌋ := by
    apply Int.ceil_le.2
    push_cast
    have h1 := Int.le_ceil (a + c)
    have h2 := Int.floor_le a
    linarith
  omega

/-- The grid of a face inside the box of the image is inside the image. -/
theorem grid_fits {b B : Box2 K} (hb : ProperBox b) (hs : SubBox b B) {p : K} (hp : 0 < p) :
    0 ≤ ⌊(B.ymax - b.ymax) / p⌋ ∧ 0 ≤ ⌊(b.xmin - B.xmin) / p⌋ ∧ 0 ≤ ⌈(b.xmax - b.xmin) / p⌉ ∧ 0 ≤ ⌈(b.ymax - b.ymin) / p⌉ ∧
    ⌊(B.ymax - b.ymax) / p⌋ + ⌈(b.ymax - b.ymin) / p⌉ ≤ ⌈(B.ymax - B.ymin) / p⌉ ∧
    ⌊(b.xmin - B.xmin) / p⌋ + ⌈(b.xmax - b.xmin) / p⌉ ≤ ⌈(B.xmax - B.xmin) / p⌉ := by
  obtain ⟨h1, h2, h3, h4⟩ := hs
  obtain ⟨h5, h6⟩ := hb
  refine ⟨Int.floor_nonneg.2 (div_nonneg (by linarith) hp.le), Int.floor_nonneg.2 (div_nonneg (by linarith) hp.le),
    Int.ceil_nonneg (div_nonneg (by linarith) hp.le), Int.ceil_nonneg (div_nonneg (by linarith) hp.le), ?_, ?_⟩
  · refine (floor_add_ceil_le _ _).trans (Int.ceil_le_ceil ?_)
    rw [← add_div]
    exact div_le_div_of_nonneg_right (by linarith) hp.le
  · refine (floor_add_ceil_le _ _).trans (Int.ceil_le_ceil ?_)
    rw [← add_div]
    exact div_le_div_of_nonneg_right (by linarith) hp.le

/-- The sizes of the grid of a face inside a box whose sizes fit. -/
theorem grid_ok {b B : Box2 K} (hb : ProperBox b) (hs : SubBox b B) {p : K} (hp : 0 < p) {H W : Nat}
    (hH : ceilCells (B.ymax - B.ymin) p = .ok H) (hW : ceilCells (B.xmax - B.xmin) p = .ok W) :
    ∃ i0 j0 w h : Nat, floorCells (B.ymax - b.ymax) p = .ok i0 ∧ floorCells (b.xmin - B.xmin) p = .ok j0 ∧
      ceilCells (b.xmax - b.xmin) p = .ok w ∧ ceilCells (b.ymax - b.ymin) p = .ok h ∧ i0 + h ≤ H ∧ j0 + w ≤ W := by
  obtain ⟨g1, g2, g3, g4, g5, g6⟩ := grid_fits hb hs hp
  obtain ⟨_, hH1, hH2⟩ := ceilCells_eq_ok.1 hH
  obtain ⟨_, hW1, hW2⟩ := ceilCells_eq_ok.1 hW
  refine ⟨⌊(B.ymax - b.ymax) / p⌋.toNat, ⌊(b.xmin - B.xmin) / p⌋.toNat, ⌈(b.xmax - b.xmin) / p⌉.toNat, ⌈(b.ymax - b.ymin) / p⌉.toNat,
    floorCells_eq_ok.2 ⟨hp.ne', ?_, ?_⟩, floorCells_eq_ok.2 ⟨hp.ne', ?_, ?_⟩, ceilCells_eq_ok.2 ⟨hp.ne', ?_, ?_⟩,
    ceilCells_eq_ok.2 ⟨hp.ne', ?_, ?_⟩, ?_, ?_⟩ <;> omega

/-! ### Indexes -/

theorem key_lt {i j H W : Nat} (hi : i < H) (hj : j < W) : i * W + j < H * W := by
  calc i * W + j < i * W + W := by omega
    _ = (i + 1) * W := by ring
    _ ≤ H * W := Nat.mul_le_mul_right _ hi

theorem key_inj {i j i' j' W : Nat} (hj : j < W) (hj' : j' < W) (h : i * W + j = i' * W + j') : i = i' ∧ j = j' := by
  have hW : 0 < W := by omega
  have e1 : (i * W + j) / W = i := by rw [Nat.mul_comm, Nat.mul_add_div hW, Nat.div_eq_of_lt hj, Nat.add_zero]
  have e2 : (i' * W + j') / W = i' := by rw [Nat.mul_comm, Nat.mul_add_div hW, Nat.div_eq_of_lt hj', Nat.add_zero]
  have : i = i' := by rw [← e1, ← e2, h]
  subst this
  exact ⟨rfl, by omega⟩

/-- The index in the image of the `n`-th pixel of a face. -/
def pixelKey (i0 j0 w width n : Nat) : Nat := (i0 + n / w) * width + j0 + n % w

theorem pixelKey_pos {i0 j0 w h H W n : Nat} (hn : n < w * h) (hi : i0 + h ≤ H) (hj : j0 + w ≤ W) :
    i0 + n / w < H ∧ j0 + n % w < W := by
  have hw : 0 < w := by rcases Nat.eq_zero_or_pos w with rfl | h; simp at hn; exact h
  have h1 : n / w < h := Nat.div_lt_of_lt_mul hn
  have h2 : n % w < w := Nat.mod_lt _ hw
  omega

theorem pixelKey_inj {i0 j0 w h H W m n : Nat} (hm : m < w * h) (hn : n < w * h) (hi : i0 + h ≤ H) (hj : j0 + w ≤ W)
    (he : pixelKey i0 j0 w W m = pixelKey i0 j0 w W n) : m = n := by
  unfold pixelKey at he
  have a := pixelKey_pos hm hi hj
  have b := pixelKey_pos hn hi hj
  have := key_inj a.2 b.2 (by rw [← Nat.add_assoc, ← Nat.add_assoc]; exact he)
  have e1 : m / w = n / w := by omega
  have e2 : m % w = n % w := by omega
  rw [← Nat.div_add_mod m w, ← Nat.div_add_mod n w, e1, e2]

/-! ### The loop over the pixels of a face -/

/-- The height given by the face to its `n`-th pixel. -/
def nth (C : Cgal K) (f : FacePrint K) (b : Box2 K) (p : K) (w n : Nat) : Out (Option K) :=
  pixelHeight C f (b.xmin + ((n % w : Nat) : K) * p) (b.ymax - ((n / w : Nat) : K) * p) p

/-- One update of a pixel. -/
def step (v : K × Int) : Option K → K × Int
  | none => v
  | some z => ((v.1 * (v.2 : K) + z) / (shortSucc v.2 : K), shortSucc v.2)

theorem rasterLoop_cons (C : Cgal K) (lr : Bool) (f : FacePrint K) (b : Box2 K) (p : K) (i0 j0 w W n : Nat) (ns : List Nat)
    (s : List K × List Int) : rasterLoop C lr f b p i0 j0 w W (n :: ns) s =
      (nth C f b p w n >>= fun z => match z with
        | none => rasterLoop C lr f b p i0 j0 w W ns s
        | some z => bump lr (pixelKey i0 j0 w W n) z s >>= fun s' => rasterLoop C lr f b p i0 j0 w W ns s') := by
  conv_lhs => unfold rasterLoop
  rfl

theorem bump_ok {lr : Bool} {k : Nat} {z : K} {s : List K × List Int} {v : K} {n : Int} (h1 : s.1[k]? = some v) (h2 : s.2[k]? = some n) :
    bump lr k z s = .ok (s.1.set k ((v * ((if lr then n else shortSucc n : Int) : K) + z) / (shortSucc n : K)), s.2.set k (shortSucc n)) := by
  unfold bump
  rw [Out.atOr_eq_ok.2 h1, Out.ok_bind, Out.atOr_eq_ok.2 h2, Out.ok_bind]

theorem getElem?_of_lt {α : Type} {l : List α} {k : Nat} (h : k < l.length) : ∃ a, l[k]? = some a := ⟨l[k], by simp [h]⟩

/-- The loop leaves by an exception of a height, or visits every pixel once. -/
theorem rasterLoop_spec (C : Cgal K) (f : FacePrint K) (b : Box2 K) (p : K) (i0 j0 w W : Nat) (ns : List Nat) (s : List K × List Int)
    (hnd : (ns.map (pixelKey i0 j0 w W)).Nodup) (h1 : ∀ n ∈ ns, pixelKey i0 j0 w W n < s.1.length) (hl : s.1.length = s.2.length) :
    (∃ s', rasterLoop C true f b p i0 j0 w W ns s = .ok s' ∧ s'.1.length = s.1.length ∧ s'.2.length = s.1.length ∧
      (∀ n ∈ ns, ∃ z, nth C f b p w n = .ok z) ∧
      (∀ k v c, s.1[k]? = some v → s.2[k]? = some c → (∀ n ∈ ns, pixelKey i0 j0 w W n ≠ k) → s'.1[k]? = some v ∧ s'.2[k]? = some c) ∧
      (∀ n ∈ ns, ∀ v c z, s.1[pixelKey i0 j0 w W n]? = some v → s.2[pixelKey i0 j0 w W n]? = some c → nth C f b p w n = .ok z →
        s'.1[pixelKey i0 j0 w W n]? = some (step (v, c) z).1 ∧ s'.2[pixelKey i0 j0 w W n]? = some (step (v, c) z).2)) ∨
    ∃ n ∈ ns, (∃ e, nth C f b p w n = .thrown e ∧ rasterLoop C true f b p i0 j0 w W ns s = .thrown e) ∨
      nth C f b p w n = .ub ∧ rasterLoop C true f b p i0 j0 w W ns s = .ub := by
  induction ns generalizing s with
  | nil => exact Or.inl ⟨s, rfl, rfl, hl.symm, by simp, fun k v c hv hc _ => ⟨hv, hc⟩, by simp⟩
  | cons n ns ih =>
    rw [rasterLoop_cons]
    rw [List.map_cons, List.nodup_cons] at hnd
    cases hz : nth C f b p w n with
    | thrown e => exact Or.inr ⟨n, by simp, Or.inl ⟨e, hz, by rw [Out.thrown_bind]⟩⟩
    | ub => exact Or.inr ⟨n, by simp, Or.inr ⟨hz, by rw [Out.ub_bind]⟩⟩
    | ok z =>
      rw [Out.ok_bind]
      cases z with
      | none =>
        dsimp only
        rcases ih s hnd.2 (fun m hm => h1 m (List.mem_cons_of_mem _ hm)) hl with ⟨s', e1, e2, e3, e6, e4, e5⟩ | ⟨m, hm, h⟩
        · refine Or.inl ⟨s', e1, e2, e3, ?_, fun k v c hv hc hk => e4 k v c hv hc fun m hm => hk m (List.mem_cons_of_mem _ hm), ?_⟩
          · intro m hm
            rcases List.mem_cons.1 hm with rfl | hm
            · exact ⟨_, hz⟩
            · exact e6 m hm
          intro m hm v c z hv hc hmz
          rcases List.mem_cons.1 hm with rfl | hm
          · rw [hz] at hmz
            cases hmz
            exact e4 _ v c hv hc fun m' hm' he => hnd.1 (List.mem_map.2 ⟨m', hm', he⟩)
          · exact e5 m hm v c z hv hc hmz
        · exact Or.inr ⟨m, List.mem_cons_of_mem _ hm, h⟩
      | some z =>
        dsimp only
        have hk := h1 n List.mem_cons_self
        obtain ⟨v, hv⟩ := getElem?_of_lt hk
        obtain ⟨c, hc⟩ := getElem?_of_lt (hl ▸ hk)
        rw [bump_ok hv hc, Out.ok_bind]
        rcases ih (s.1.set (pixelKey i0 j0 w W n) ((v * ((if true then c else shortSucc c : Int) : K) + z) / (shortSucc c : K)),
            s.2.set (pixelKey i0 j0 w W n) (shortSucc c)) hnd.2 (fun m hm => by
            rw [List.length_set]; exact h1 m (List.mem_cons_of_mem _ hm)) (by rw [List.length_set, List.length_set, hl]) with
          ⟨s', e1, e2, e3, e6, e4, e5⟩ | ⟨m, hm, h⟩
        · rw [List.length_set] at e2 e3
          refine Or.inl ⟨s', e1, e2, e3, ?_, ?_, ?_⟩
          · intro m hm
            rcases List.mem_cons.1 hm with rfl | hm
            · exact ⟨_, hz⟩
            · exact e6 m hm
          · intro k v' c' hv' hc' hne
            have hne' := hne n List.mem_cons_self
            refine e4 k v' c' ?_ ?_ fun m hm => hne m (List.mem_cons_of_mem _ hm)
            · dsimp only; rw [List.getElem?_set_ne hne']; exact hv'
            · dsimp only; rw [List.getElem?_set_ne hne']; exact hc'
          · intro m hm v' c' z' hv' hc' hmz
            rcases List.mem_cons.1 hm with rfl | hm
            · rw [hz] at hmz
              cases hmz
              rw [hv] at hv'
              rw [hc] at hc'
              cases hv'
              cases hc'
              refine e4 _ _ _ ?_ ?_ fun m' hm' he => hnd.1 (List.mem_map.2 ⟨m', hm', he⟩)
              · dsimp only; rw [List.getElem?_set_self hk]; rfl
              · dsimp only; rw [List.getElem?_set_self (hl ▸ hk)]; rfl
            · have hne : pixelKey i0 j0 w W n ≠ pixelKey i0 j0 w W m := fun he => hnd.1 (List.mem_map.2 ⟨m, hm, he.symm⟩)
              refine e5 m hm v' c' z' ?_ ?_ hmz
              · dsimp only; rw [List.getElem?_set_ne hne]; exact hv'
              · dsimp only; rw [List.getElem?_set_ne hne]; exact hc'
        · exact Or.inr ⟨m, List.mem_cons_of_mem _ hm, h⟩

/-! ### A face -/

theorem nth_reported {C : Cgal K} {f : FacePrint K} {b B : Box2 K} {p : K} {i0 j0 w h n : Nat} (hf : f.bbox = some b)
    (hd : f.isDegenerate C = false) (hi0 : ⌊(B.ymax - b.ymax) / p⌋ = i0) (hj0 : ⌊(b.xmin - B.xmin) / p⌋ = j0)
    (hw : ⌈(b.xmax - b.xmin) / p⌉ = w) (hh : ⌈(b.ymax - b.ymin) / p⌉ = h) (hn : n < w * h) {z : Option K} (hz : nth C f b p w n = .ok z) :
    reported C B.xmin B.ymax p (i0 + n / w) (j0 + n % w) f = z := by
  have hw0 : 0 < w := by rcases Nat.eq_zero_or_pos w with rfl | h; simp at hn; exact h
  have h1 : n / w < h := Nat.div_lt_of_lt_mul hn
  have h2 : n % w < w := Nat.mod_lt _ hw0
  have c1 : (i0 : ℤ) ≤ ((i0 + n / w : Nat) : ℤ) := by exact_mod_cast Nat.le_add_right i0 (n / w)
  have c2 : ((i0 + n / w : Nat) : ℤ) < (i0 : ℤ) + (h : ℤ) := by exact_mod_cast Nat.add_lt_add_left h1 i0
  have c3 : (j0 : ℤ) ≤ ((j0 + n % w : Nat) : ℤ) := by exact_mod_cast Nat.le_add_right j0 (n % w)
  have c4 : ((j0 + n % w : Nat) : ℤ) < (j0 : ℤ) + (w : ℤ) := by exact_mod_cast Nat.add_lt_add_left h2 j0
  unfold reported
  rw [hf]
  dsimp only
  rw [hd, hi0, hj0, hw, hh, if_neg (by simp), if_pos ⟨c1, c2, c3, c4⟩]
  have e1 : ((((j0 + n % w : Nat) : ℤ) - (j0 : ℤ) : ℤ) : K) = ((n % w : Nat) : K) := by
    have : ((j0 + n % w : Nat) : ℤ) - (j0 : ℤ) = ((n % w : Nat) : ℤ) := by push_cast; ring
    rw [this, Int.cast_natCast]
  have e2 : ((((i0 + n / w : Nat) : ℤ) - (i0 : ℤ) : ℤ) : K) = ((n / w : Nat) : K) := by
    have : ((i0 + n / w : Nat) : ℤ) - (i0 : ℤ) = ((n / w : Nat) : ℤ) := by push_cast; ring
    rw [this, Int.cast_natCast]
  rw [e1, e2]
  unfold nth at hz
  rw [hz]

theorem reported_none {C : Cgal K} {f : FacePrint K} {b B : Box2 K} {p : K} {i0 j0 w h i j : Nat} (hf : f.bbox = some b)
    (hi0 : ⌊(B.ymax - b.ymax) / p⌋ = i0) (hj0 : ⌊(b.xmin - B.xmin) / p⌋ = j0)
    (hw : ⌈(b.xmax - b.xmin) / p⌉ = w) (hh : ⌈(b.ymax - b.ymin) / p⌉ = h)
    (hn : ∀ n < w * h, ¬ (i0 + n / w = i ∧ j0 + n % w = j)) : reported C B.xmin B.ymax p i j f = none := by
  unfold reported
  rw [hf]
  dsimp only
  split
  · rfl
  · rw [hi0, hj0, hw, hh, if_neg]
    rintro ⟨a1, a2, a3, a4⟩
    have b1 : i - i0 < h := by omega
    have b2 : j - j0 < w := by omega
    refine hn ((i - i0) * w + (j - j0)) ?_ ⟨?_, ?_⟩
    · rw [Nat.mul_comm w h]; exact key_lt b1 b2
    · rw [Nat.mul_comm, Nat.mul_add_div (by omega), Nat.div_eq_of_lt b2]; omega
    · rw [Nat.mul_comm, Nat.mul_add_mod, Nat.mod_eq_of_lt b2]; omega

/-- Rasterising a face inside the box of the image: a height throws, or each pixel is updated with what the face reports for it. -/
theorem rasterize_spec (C : Cgal K) (f : FacePrint K) {B : Box2 K} {p : K} (hp : 0 < p) {H W : Nat}
    (hH : ceilCells (B.ymax - B.ymin) p = .ok H) (hW : ceilCells (B.xmax - B.xmin) p = .ok W)
    (hf : f.isDegenerate C = false → ∃ b, f.bbox = some b ∧ ProperBox b ∧ SubBox b B)
    (s : List K × List Int) (h1 : s.1.length = H * W) (h2 : s.2.length = H * W) :
    (∃ s', f.rasterize C true B.xmin B.ymax H W p s = .ok s' ∧ s'.1.length = H * W ∧ s'.2.length = H * W ∧
      ∀ i < H, ∀ j < W, ∀ v c, s.1[i * W + j]? = some v → s.2[i * W + j]? = some c →
        s'.1[i * W + j]? = some (step (v, c) (reported C B.xmin B.ymax p i j f)).1 ∧
        s'.2[i * W + j]? = some (step (v, c) (reported C B.xmin B.ymax p i j f)).2) ∨
    f.isDegenerate C = false ∧ ∃ x y, (∃ e, f.pixelHeight C x y p = .thrown e ∧ f.rasterize C true B.xmin B.ymax H W p s = .thrown e) ∨
      f.pixelHeight C x y p = .ub ∧ f.rasterize C true B.xmin B.ymax H W p s = .ub := by
  cases hd : f.isDegenerate C with
  | true =>
    refine Or.inl ⟨s, by unfold rasterize; rw [if_pos hd], h1, h2, fun i _ j _ v c hv hc => ?_⟩
    have : reported C B.xmin B.ymax p i j f = none := by
      unfold reported
      split
      · rfl
      · rw [if_pos hd]
    rw [this]
    exact ⟨hv, hc⟩
  | false =>
    obtain ⟨b, hb, hpr, hsub⟩ := hf hd
    obtain ⟨i0, j0, w, h, g1, g2, g3, g4, g5, g6⟩ := grid_ok hpr hsub hp hH hW
    have hr : f.rasterize C true B.xmin B.ymax H W p s = rasterLoop C true f b p i0 j0 w W (List.range (w * h)) s := by
      unfold rasterize
      rw [hd, hb]
      dsimp only
      rw [g1, g2, g3, g4]
      simp only [Out.ok_bind]
      rw [if_neg (by simp), if_neg (by omega)]
    rw [hr]
    obtain ⟨_, k1, _⟩ := floorCells_eq_ok.1 g1
    obtain ⟨_, k2, _⟩ := floorCells_eq_ok.1 g2
    obtain ⟨_, k3, _⟩ := ceilCells_eq_ok.1 g3
    obtain ⟨_, k4, _⟩ := ceilCells_eq_ok.1 g4
    rcases rasterLoop_spec C f b p i0 j0 w W (List.range (w * h)) s (List.Nodup.map_on (fun m hm n hn he =>
        pixelKey_inj (List.mem_range.1 hm) (List.mem_range.1 hn) g5 g6 he) List.nodup_range) (fun n hn => by
        rw [h1]
        have := pixelKey_pos (List.mem_range.1 hn) g5 g6
        unfold pixelKey
        rw [Nat.add_assoc]
        exact key_lt this.1 this.2) (h1.trans h2.symm) with ⟨s', e1, e2, e3, e4, e5, e6⟩ | ⟨n, _, h⟩
    · refine Or.inl ⟨s', e1, e2.trans h1, e3.trans h1, fun i hi j hj v c hv hc => ?_⟩
      by_cases hn : ∃ n < w * h, i0 + n / w = i ∧ j0 + n % w = j
      · obtain ⟨n, hn, rfl, rfl⟩ := hn
        obtain ⟨z, hz⟩ := e4 n (List.mem_range.2 hn)
        rw [nth_reported hb hd k1 k2 k3 k4 hn hz]
        have hk : (i0 + n / w) * W + (j0 + n % w) = pixelKey i0 j0 w W n := by unfold pixelKey; rw [Nat.add_assoc]
        rw [hk] at hv hc ⊢
        exact e6 n (List.mem_range.2 hn) v c z hv hc hz
      · rw [reported_none hb k1 k2 k3 k4 fun n hn' he => hn ⟨n, hn', he⟩]
        refine e5 _ v c hv hc fun n hn' he => hn ⟨n, List.mem_range.1 hn', ?_⟩
        have := pixelKey_pos (List.mem_range.1 hn') g5 g6
        unfold pixelKey at he
        rw [Nat.add_assoc] at he
        exact key_inj this.2 hj he
    · refine Or.inr ⟨rfl, b.xmin + ((n % w : Nat) : K) * p, b.ymax - ((n / w : Nat) : K) * p, ?_⟩
      rcases h with ⟨e, h1, h2⟩ | ⟨h1, h2⟩
      · exact Or.inl ⟨e, h1, h2⟩
      · exact Or.inr ⟨h1, h2⟩

/-! ### The running mean -/

theorem mean_nil : mean ([] : List K) = 0 := by simp [mean]

/-- The running mean stays the mean as long as the counter does not overflow. -/
theorem step_mean (zs : List K) (hz : zs.length < 32767) (z : K) :
    step (mean zs, (zs.length : Int)) (some z) = (mean (zs ++ [z]), ((zs ++ [z]).length : Int)) := by
  have hs : shortSucc (zs.length : Int) = (zs.length : Int) + 1 := by unfold shortSucc; rw [if_neg (by omega)]
  have hpos : ((zs.length : K) + 1) ≠ 0 := by positivity
  unfold step
  rw [hs]
  ext
  · simp only [mean, List.sum_append, List.sum_cons, List.sum_nil, add_zero, List.length_append, List.length_cons, List.length_nil]
    push_cast
    rcases Nat.eq_zero_or_pos zs.length with h0 | h0
    · have : zs = [] := List.length_eq_zero_iff.1 h0
      subst this
      simp
    · have : (zs.length : K) ≠ 0 := by positivity
      field_simp
  · simp

/-- The values of the pixel reported by the faces, in order. -/
def seen (C : Cgal K) (left top p : K) (i j : Nat) (fs : List (FacePrint K)) : List K := fs.filterMap (reported C left top p i j)

/-- Painting faces inside the box: a height throws, or every pixel has the mean of what was reported. -/
theorem paint_spec (C : Cgal K) {B : Box2 K} {p : K} (hp : 0 < p) {H W : Nat} (hH : ceilCells (B.ymax - B.ymin) p = .ok H)
    (hW : ceilCells (B.xmax - B.xmin) p = .ok W) (fs : List (FacePrint K))
    (hf : ∀ f ∈ fs, f.isDegenerate C = false → ∃ b, f.bbox = some b ∧ ProperBox b ∧ SubBox b B)
    (gs : List (FacePrint K)) (s : List K × List Int) (h1 : s.1.length = H * W) (h2 : s.2.length = H * W)
    (hs : ∀ i < H, ∀ j < W, (seen C B.xmin B.ymax p i j (gs ++ fs)).length ≤ 32767 →
      s.1[i * W + j]? = some (mean (seen C B.xmin B.ymax p i j gs)) ∧ s.2[i * W + j]? = some ((seen C B.xmin B.ymax p i j gs).length : Int)) :
    (∃ s', Raster.paint C true B.xmin B.ymax H W p fs s = .ok s' ∧ s'.1.length = H * W ∧ s'.2.length = H * W ∧
      ∀ i < H, ∀ j < W, (seen C B.xmin B.ymax p i j (gs ++ fs)).length ≤ 32767 →
        s'.1[i * W + j]? = some (mean (seen C B.xmin B.ymax p i j (gs ++ fs))) ∧
        s'.2[i * W + j]? = some ((seen C B.xmin B.ymax p i j (gs ++ fs)).length : Int)) ∨
    ∃ f ∈ fs, f.isDegenerate C = false ∧ ∃ x y, (∃ e, f.pixelHeight C x y p = .thrown e ∧ Raster.paint C true B.xmin B.ymax H W p fs s = .thrown e) ∨
      f.pixelHeight C x y p = .ub ∧ Raster.paint C true B.xmin B.ymax H W p fs s = .ub := by
  induction fs generalizing gs s with
  | nil => exact Or.inl ⟨s, rfl, h1, h2, by simpa using hs⟩
  | cons f fs ih =>
    have e : ∀ s, Raster.paint C true B.xmin B.ymax H W p (f :: fs) s =
      (f.rasterize C true B.xmin B.ymax H W p s >>= fun s' => Raster.paint C true B.xmin B.ymax H W p fs s') := fun _ => rfl
    rw [e]
    rcases rasterize_spec C f hp hH hW (hf f List.mem_cons_self) s h1 h2 with ⟨s', k1, k2, k3, k4⟩ | ⟨hd, x, y, h⟩
    · rw [k1, Out.ok_bind]
      have happ : ∀ i j, seen C B.xmin B.ymax p i j (gs ++ f :: fs) = seen C B.xmin B.ymax p i j ((gs ++ [f]) ++ fs) := by
        intro i j; rw [List.append_assoc]; rfl
      rcases ih (fun g hg => hf g (List.mem_cons_of_mem _ hg)) (gs ++ [f]) s' k2 k3 (fun i hi j hj hlen => by
          rw [← happ] at hlen
          obtain ⟨a1, a2⟩ := hs i hi j hj hlen
          obtain ⟨b1, b2⟩ := k4 i hi j hj _ _ a1 a2
          rw [b1, b2]
          have hsp : seen C B.xmin B.ymax p i j (gs ++ [f]) = seen C B.xmin B.ymax p i j gs ++ (reported C B.xmin B.ymax p i j f).toList := by
            unfold seen
            rw [List.filterMap_append, List.filterMap_cons, List.filterMap_nil]
            cases reported C B.xmin B.ymax p i j f <;> rfl
          have hlt : (seen C B.xmin B.ymax p i j (gs ++ [f])).length ≤ 32767 := by
            rw [happ] at hlen
            unfold seen at hlen ⊢
            rw [List.filterMap_append, List.length_append] at hlen
            omega
          rw [hsp] at hlt ⊢
          cases hr : reported C B.xmin B.ymax p i j f with
          | none => simp [step]
          | some z =>
            rw [hr] at hlt
            simp only [Option.toList_some, List.length_append, List.length_cons, List.length_nil] at hlt
            rw [step_mean _ (by omega)]
            exact ⟨rfl, rfl⟩) with ⟨s'', c1, c2, c3, c4⟩ | ⟨g, hg, c⟩
      · refine Or.inl ⟨s'', c1, c2, c3, fun i hi j hj hlen => ?_⟩
        rw [happ] at hlen ⊢
        exact c4 i hi j hj hlen
      · exact Or.inr ⟨g, List.mem_cons_of_mem _ hg, c⟩
    · refine Or.inr ⟨f, List.mem_cons_self, hd, x, y, ?_⟩
      rcases h with ⟨e, a1, a2⟩ | ⟨a1, a2⟩
      · exact Or.inl ⟨e, a1, by rw [a2, Out.thrown_bind]⟩
      · exact Or.inr ⟨a1, by rw [a2, Out.ub_bind]⟩

/-! ### Boxes of polygons -/

theorem polyBox_foldl (l : Poly K) (o : Option (Box2 K)) (B : Box2 K) (ho : ∀ b, o = some b → ProperBox b ∧ SubBox b B)
    (hl : ∀ v ∈ l, B.xmin ≤ v.x ∧ v.x ≤ B.xmax ∧ B.ymin ≤ v.y ∧ v.y ≤ B.ymax) :
    ∀ b, l.foldl (fun b v => Box2.union b (some (Box2.point v))) o = some b → ProperBox b ∧ SubBox b B := by
  induction l generalizing o with
  | nil => exact ho
  | cons v l ih =>
    refine ih _ ?_ fun u hu => hl u (List.mem_cons_of_mem _ hu)
    intro b hb
    obtain ⟨a1, a2, a3, a4⟩ := hl v List.mem_cons_self
    cases o with
    | none =>
      cases hb
      exact ⟨⟨le_refl _, le_refl _⟩, a1, a2, a3, a4⟩
    | some c =>
      obtain ⟨⟨b1, b2⟩, b3, b4, b5, b6⟩ := ho c rfl
      cases hb
      exact ⟨⟨(min_le_left _ _).trans (b1.trans (le_max_left _ _)), (min_le_left _ _).trans (b2.trans (le_max_left _ _))⟩,
        le_min b3 a1, max_le b4 a2, le_min b5 a3, max_le b6 a4⟩

/-- The box of a polygon inside a box. -/
theorem polyBox_sub {l : Poly K} (hne : l ≠ []) {B : Box2 K} (hl : ∀ v ∈ l, B.xmin ≤ v.x ∧ v.x ≤ B.xmax ∧ B.ymin ≤ v.y ∧ v.y ≤ B.ymax) :
    ∃ b, polyBox l = some b ∧ ProperBox b ∧ SubBox b B := by
  have hex : ∃ b, polyBox l = some b := by
    cases l with
    | nil => exact absurd rfl hne
    | cons v l =>
      unfold polyBox
      rw [List.foldl_cons]
      have : ∀ (l : Poly K) (c : Box2 K), ∃ b, l.foldl (fun b v => Box2.union b (some (Box2.point v))) (some c) = some b := by
        intro l
        induction l with
        | nil => exact fun c => ⟨c, rfl⟩
        | cons u l ih => intro c; rw [List.foldl_cons]; exact ih _
      exact this l _
  obtain ⟨b, hb⟩ := hex
  exact ⟨b, hb, polyBox_foldl l none B (by simp) hl b hb⟩

end City
