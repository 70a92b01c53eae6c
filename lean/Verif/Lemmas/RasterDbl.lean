import Verif.Model.RasterDbl
import Verif.Lemmas.Float
import Verif.Lemmas.Raster
/-!
Lemmas on rows and columns computed in doubles.
-/
set_option linter.unusedSectionVars false
namespace City
open City.Spec FacePrint

/-! ### No rounding -/

section
variable {K : Type} [Field K] [LinearOrder K] [IsStrictOrderedRing K] [FloorRing K] (C : Cgal K)

theorem heightIn_square (f : FacePrint K) (x y p : K) : heightIn C f (square x y p) = pixelHeight C f x y p := rfl

theorem floorCellsR_id (a b p : K) : floorCellsR id a b p = floorCells (a - b) p := rfl

theorem ceilCellsR_id (a b p : K) : ceilCellsR id a b p = ceilCells (a - b) p := rfl

theorem rasterLoopR_id (lr : Bool) (f : FacePrint K) (b : Box2 K) (p : K) (i0 j0 w W : Nat) : ∀ (ns : List Nat) (s : List K × List Int),
    rasterLoopR C id lr f b p i0 j0 w W ns s = rasterLoop C lr f b p i0 j0 w W ns s := by
  intro ns
  induction ns with
  | nil => intro s; rfl
  | cons n ns ih =>
    intro s
    unfold rasterLoopR rasterLoop
    have e : (fun s' => rasterLoopR C id lr f b p i0 j0 w W ns s') = fun s' => rasterLoop C lr f b p i0 j0 w W ns s' := funext ih
    congr 1
    funext z
    cases z with
    | none => exact ih s
    | some z => exact congrArg (fun k => bump lr ((i0 + n / w) * W + j0 + n % w) z s >>= k) e

theorem rasterizeR_id (lr : Bool) (f : FacePrint K) (left top : K) (H W : Nat) (p : K) (s : List K × List Int) :
    f.rasterizeR C id lr left top H W p s = f.rasterize C lr left top H W p s := by
  unfold rasterizeR rasterize
  simp only [floorCellsR_id, ceilCellsR_id, rasterLoopR_id]
  rfl

theorem paintR_id (lr : Bool) (left top : K) (H W : Nat) (p : K) : ∀ (fs : List (FacePrint K)) (s : List K × List Int),
    Raster.paintR C id lr left top H W p fs s = Raster.paint C lr left top H W p fs s := by
  intro fs
  induction fs with
  | nil => intro s; rfl
  | cons f fs ih =>
    intro s
    unfold Raster.paintR Raster.paint
    rw [rasterizeR_id]
    congr 1
    funext s'
    exact ih s'

theorem ofFootPrintR_id (lr : Bool) (fp : FootPrint K) (p : K) : Raster.ofFootPrintR C id lr fp p = Raster.ofFootPrint C lr fp p := by
  unfold Raster.ofFootPrintR Raster.ofFootPrint
  simp only [ceilCellsR_id, paintR_id]
  rfl

end

/-! ### Quotients of integers -/

theorem bits_int {n : ℤ} (h : |n| ≤ 2 ^ 53) : Bits (n : ℚ) := by
  have := bits_of_le h (by norm_num : (-1074 : ℤ) ≤ 0)
  simpa using this

theorem bits_grid {n s : ℤ} (h : |n| ≤ 2 ^ 53) (hs : -1074 ≤ s) : fl ((n : ℚ) * 2 ^ s) = n * 2 ^ s := fl_of_bits' (bits_of_le h hs)

theorem abs_floor_le (A P : ℤ) (hP : 0 < P) : |⌊(A : ℚ) / P⌋| ≤ |A| := by
  have h1 : (1 : ℚ) ≤ P := by exact_mod_cast hP
  rcases le_total 0 A with h | h
  · have h0 : (0 : ℚ) ≤ A := by exact_mod_cast h
    rw [abs_of_nonneg h, abs_of_nonneg (Int.floor_nonneg.2 (div_nonneg h0 (by linarith)))]
    have : (A : ℚ) / P ≤ A := div_le_self h0 h1
    have := (Int.floor_le_floor this)
    rwa [Int.floor_intCast] at this
  · have h0 : (A : ℚ) ≤ 0 := by exact_mod_cast h
    have hle : (A : ℚ) / P ≤ 0 := div_nonpos_of_nonpos_of_nonneg h0 (by linarith)
    have h3 : ⌊(A : ℚ) / P⌋ ≤ 0 := by
      have := Int.floor_le_floor hle
      simpa using this
    rw [abs_of_nonpos h, abs_of_nonpos h3]
    have : (A : ℚ) ≤ A / P := by rw [le_div_iff₀ (by linarith)]; nlinarith
    have := Int.le_floor.2 this
    omega

/-- The quotient of integers below 2^53, rounded, has the right integer part. -/
theorem floor_fl_div {A P : ℤ} (hP : 0 < P) (hP' : P ≤ 2 ^ 53) (hA : |A| < 2 ^ 53) : ⌊fl ((A : ℚ) / P)⌋ = ⌊(A : ℚ) / P⌋ := by
  have hPq : (0 : ℚ) < P := by exact_mod_cast hP
  by_cases hA0 : A = 0
  · subst hA0; simp [fl_zero]
  have hk := abs_floor_le A P hP
  set x : ℚ := (A : ℚ) / P with hx
  set k := ⌊x⌋ with hkdef
  rw [Int.floor_eq_iff]
  constructor
  · exact le_fl (bits_int (by omega)) (Int.floor_le x)
  · have hlt : x < ((k + 1 : ℤ) : ℚ) := by push_cast; exact Int.lt_floor_add_one x
    have hle : fl x ≤ ((k + 1 : ℤ) : ℚ) := fl_le (bits_int (by
      have : |k + 1| ≤ |k| + 1 := by rw [show (1 : ℤ) = |1| by norm_num]; exact abs_add_le k 1
      omega)) hlt.le
    rcases lt_or_eq_of_le hle with h | h
    · push_cast at h; exact h
    · exfalso
      have hmul : x * P = A := by rw [hx]; field_simp
      have hgap : 1 / (P : ℚ) ≤ fl x - x := by
        rw [h, div_le_iff₀ hPq, sub_mul, hmul]
        have : (A : ℚ) < (k + 1 : ℤ) * P := by rw [← hmul]; exact mul_lt_mul_of_pos_right hlt hPq
        have h' : A < (k + 1) * P := by exact_mod_cast this
        have h'' : (1 : ℤ) ≤ (k + 1) * P - A := by omega
        exact_mod_cast h''
      have habs : |x| = |(A : ℚ)| / P := by rw [hx, abs_div, abs_of_pos hPq]
      have hA1 : (1 : ℚ) ≤ |(A : ℚ)| := by
        have : (1 : ℤ) ≤ |A| := Int.one_le_abs hA0
        exact_mod_cast this
      have hbig : (2 : ℚ) ^ (-1022 : ℤ) ≤ |x| := by
        rw [habs]
        have e1 : (2 : ℚ) ^ (-1022 : ℤ) ≤ 2 ^ (-53 : ℤ) := zpow_le_zpow_right₀ (by norm_num) (by norm_num)
        have e2 : (2 : ℚ) ^ (-53 : ℤ) ≤ |(A : ℚ)| / P := by
          rw [le_div_iff₀ hPq]
          have hPq' : (P : ℚ) ≤ 2 ^ 53 := by exact_mod_cast hP'
          have : (2 : ℚ) ^ (-53 : ℤ) * P ≤ 2 ^ (-53 : ℤ) * 2 ^ 53 := mul_le_mul_of_nonneg_left hPq' (by positivity)
          have e : (2 : ℚ) ^ (-53 : ℤ) * 2 ^ 53 = 1 := by norm_num
          linarith
        exact e1.trans e2
      have herr := fl_rel hbig
      rw [Rat.cast_id] at herr
      have h1 := (le_abs_self _).trans herr
      rw [habs] at h1
      have h2 : 1 / (P : ℚ) ≤ 2 ^ (-53 : ℤ) * (|(A : ℚ)| / P) := hgap.trans h1
      rw [← mul_div_assoc, div_le_div_iff_of_pos_right hPq] at h2
      have hAq : |(A : ℚ)| < 2 ^ 53 := by exact_mod_cast hA
      have : (2 : ℚ) ^ (-53 : ℤ) * |(A : ℚ)| < 2 ^ (-53 : ℤ) * 2 ^ 53 := mul_lt_mul_of_pos_left hAq (by positivity)
      have e : (2 : ℚ) ^ (-53 : ℤ) * 2 ^ 53 = 1 := by norm_num
      linarith

theorem ceil_fl_div {A P : ℤ} (hP : 0 < P) (hP' : P ≤ 2 ^ 53) (hA : |A| < 2 ^ 53) : ⌈fl ((A : ℚ) / P)⌉ = ⌈(A : ℚ) / P⌉ := by
  have := floor_fl_div (A := -A) hP hP' (by rwa [abs_neg])
  push_cast at this
  rw [neg_div, fl_neg, Int.floor_neg, Int.floor_neg] at this
  omega

/-! ### Grids -/

/-- A multiple of `2^s` with at most 50 binary digits. -/
def OnGrid (s : ℤ) (q : ℚ) : Prop := ∃ n : ℤ, |n| ≤ 2 ^ 50 ∧ q = n * 2 ^ s

theorem grid_sub {s : ℤ} (hs : -1074 ≤ s) {a b : ℚ} (ha : OnGrid s a) (hb : OnGrid s b) : ∃ n : ℤ, |n| ≤ 2 ^ 51 ∧ a - b = n * 2 ^ s ∧ fl (a - b) = a - b := by
  obtain ⟨m, hm, rfl⟩ := ha
  obtain ⟨n, hn, rfl⟩ := hb
  have : |m - n| ≤ 2 ^ 51 := (abs_sub m n).trans (by omega)
  have e : (m : ℚ) * 2 ^ s - n * 2 ^ s = ((m - n : ℤ) : ℚ) * 2 ^ s := by push_cast; ring
  exact ⟨m - n, this, e, by rw [e]; exact bits_grid (by omega) hs⟩

theorem grid_cells {s : ℤ} (hs : -1074 ≤ s) {a b p : ℚ} (ha : OnGrid s a) (hb : OnGrid s b) (hp : OnGrid s p) (h0 : 0 < p) :
    floorCellsR fl a b p = floorCells (a - b) p ∧ ceilCellsR fl a b p = ceilCells (a - b) p := by
  obtain ⟨n, hn, e, e'⟩ := grid_sub hs ha hb
  obtain ⟨P, hP, rfl⟩ := hp
  have h2 : (0 : ℚ) < 2 ^ s := two_zpow_pos s
  have hP0 : 0 < P := by
    have : (0 : ℚ) < P := pos_of_mul_pos_left h0 h2.le
    exact_mod_cast this
  have hP' : P ≤ 2 ^ 53 := by
    have := le_abs_self P
    omega
  have hdiv : (a - b) / ((P : ℚ) * 2 ^ s) = n / P := by rw [e]; field_simp
  unfold floorCellsR floorCells ceilCellsR ceilCells
  rw [e', hdiv, floor_fl_div hP0 hP' (by omega), ceil_fl_div hP0 hP' (by omega)]
  exact ⟨rfl, rfl⟩

/-- The positions of the pixels of a row or column are not rounded. -/
theorem grid_position {s : ℤ} (hs : -1074 ≤ s) {a b p : ℚ} (ha : OnGrid s a) (hb : OnGrid s b) (hp : OnGrid s p) (h0 : 0 < p) {w : Nat}
    (hw : ceilCells (b - a) p = .ok w) {k : Nat} (hk : k < w) :
    fl (fl (k : ℚ) * p) = k * p ∧ fl (a + k * p) = a + k * p ∧ fl (a + k * p + p) = a + k * p + p ∧
    fl (b - k * p) = b - k * p ∧ fl (b - k * p - p) = b - k * p - p := by
  obtain ⟨A, hA, rfl⟩ := ha
  obtain ⟨B, hB, rfl⟩ := hb
  obtain ⟨P, hP, rfl⟩ := hp
  have h2 : (0 : ℚ) < 2 ^ s := two_zpow_pos s
  have hP0 : (0 : ℚ) < P := pos_of_mul_pos_left h0 h2.le
  have hP0' : 0 < P := by exact_mod_cast hP0
  obtain ⟨_, hc, _⟩ := ceilCells_eq_ok.1 hw
  have hlt : (k : ℚ) < ((B : ℚ) * 2 ^ s - A * 2 ^ s) / (P * 2 ^ s) := by
    have : (k : ℤ) < ⌈((B : ℚ) * 2 ^ s - A * 2 ^ s) / (P * 2 ^ s)⌉ := by rw [hc]; exact_mod_cast hk
    have := Int.lt_ceil.1 this
    simpa using this
  have hkP : (k : ℤ) * P < B - A := by
    rw [lt_div_iff₀ (by positivity)] at hlt
    have : ((k : ℚ) * P) * 2 ^ s < (B - A) * 2 ^ s := by
      calc ((k : ℚ) * P) * 2 ^ s = k * (P * 2 ^ s) := by ring
        _ < B * 2 ^ s - A * 2 ^ s := hlt
        _ = (B - A) * 2 ^ s := by ring
    have := lt_of_mul_lt_mul_right this h2.le
    exact_mod_cast this
  have hkP0 : 0 ≤ (k : ℤ) * P := mul_nonneg (Int.natCast_nonneg k) hP0'.le
  have hk1 : (k : ℤ) ≤ (k : ℤ) * P := le_mul_of_one_le_right (Int.natCast_nonneg k) hP0'
  have aA := abs_le.1 hA
  have aB := abs_le.1 hB
  have aP := abs_le.1 hP
  generalize hm : (k : ℤ) * P = m at *
  have hmq : (k : ℚ) * P = m := by rw [← hm]; push_cast; ring
  have hkfl : fl (k : ℚ) = k := by
    have : Bits ((k : ℤ) : ℚ) := bits_int (by rw [abs_of_nonneg (Int.natCast_nonneg k)]; omega)
    simpa using fl_of_bits' this
  have key : ∀ n : ℤ, |n| ≤ 2 ^ 53 → fl ((n : ℚ) * 2 ^ s) = n * 2 ^ s := fun n hn => bits_grid hn hs
  have e0 : (k : ℚ) * (P * 2 ^ s) = ((m : ℤ) : ℚ) * 2 ^ s := by rw [← hmq]; ring
  have e1 : (A : ℚ) * 2 ^ s + (m : ℚ) * 2 ^ s = ((A + m : ℤ) : ℚ) * 2 ^ s := by push_cast; ring
  have e2 : (A : ℚ) * 2 ^ s + (m : ℚ) * 2 ^ s + P * 2 ^ s = ((A + m + P : ℤ) : ℚ) * 2 ^ s := by push_cast; ring
  have e3 : (B : ℚ) * 2 ^ s - (m : ℚ) * 2 ^ s = ((B - m : ℤ) : ℚ) * 2 ^ s := by push_cast; ring
  have e4 : (B : ℚ) * 2 ^ s - (m : ℚ) * 2 ^ s - P * 2 ^ s = ((B - m - P : ℤ) : ℚ) * 2 ^ s := by push_cast; ring
  rw [hkfl, e0, e1, e3]
  refine ⟨key _ ?_, key _ ?_, ?_, key _ ?_, ?_⟩
  · rw [abs_le]; omega
  · rw [abs_le]; omega
  · rw [← e1, e2]; exact key _ (by rw [abs_le]; omega)
  · rw [abs_le]; omega
  · rw [← e3, e4]; exact key _ (by rw [abs_le]; omega)

/-- Every coordinate of the box of a polygon is a coordinate of a vertex. -/
theorem polyBox_from {P : ℚ → Prop} (l : Poly ℚ) (hl : ∀ v ∈ l, P v.x ∧ P v.y) (b : Box2 ℚ) (hb : polyBox l = some b) :
    P b.xmin ∧ P b.ymin ∧ P b.xmax ∧ P b.ymax := by
  have key : ∀ (l : Poly ℚ) (o : Option (Box2 ℚ)), (∀ b, o = some b → P b.xmin ∧ P b.ymin ∧ P b.xmax ∧ P b.ymax) → (∀ v ∈ l, P v.x ∧ P v.y) →
      ∀ b, l.foldl (fun b v => Box2.union b (some (Box2.point v))) o = some b → P b.xmin ∧ P b.ymin ∧ P b.xmax ∧ P b.ymax := by
    intro l
    induction l with
    | nil => exact fun o ho _ => ho
    | cons v l ih =>
      intro o ho hl
      refine ih _ ?_ fun u hu => hl u (List.mem_cons_of_mem _ hu)
      intro b hb
      obtain ⟨a1, a2⟩ := hl v List.mem_cons_self
      cases o with
      | none => cases hb; exact ⟨a1, a2, a1, a2⟩
      | some c =>
        obtain ⟨b1, b2, b3, b4⟩ := ho c rfl
        cases hb
        refine ⟨?_, ?_, ?_, ?_⟩
        · rcases min_choice c.xmin (Box2.point v).xmin with h | h <;> rw [h]; exacts [b1, a1]
        · rcases min_choice c.ymin (Box2.point v).ymin with h | h <;> rw [h]; exacts [b2, a2]
        · rcases max_choice c.xmax (Box2.point v).xmax with h | h <;> rw [h]; exacts [b3, a1]
        · rcases max_choice c.ymax (Box2.point v).ymax with h | h <;> rw [h]; exacts [b4, a2]
  exact key l none (by simp) hl b hb

theorem rasterLoopR_cons (C : Cgal ℚ) (rd : ℚ → ℚ) (lr : Bool) (f : FacePrint ℚ) (b : Box2 ℚ) (p : ℚ) (i0 j0 w W n : Nat) (ns : List Nat)
    (t : List ℚ × List Int) : rasterLoopR C rd lr f b p i0 j0 w W (n :: ns) t =
      (heightIn C f (squareR rd (rd (b.xmin + rd (rd ((n % w : Nat) : ℚ) * p))) (rd (b.ymax - rd (rd ((n / w : Nat) : ℚ) * p))) p) >>=
        fun z => match z with
        | none => rasterLoopR C rd lr f b p i0 j0 w W ns t
        | some z => bump lr (pixelKey i0 j0 w W n) z t >>= fun t' => rasterLoopR C rd lr f b p i0 j0 w W ns t') := by
  conv_lhs => unfold rasterLoopR
  congr 1
  funext z
  cases z <;> rfl

theorem grid_loop (C : Cgal ℚ) {s : ℤ} (hs : -1074 ≤ s) {p : ℚ} (hp : OnGrid s p) (h0 : 0 < p) (lr : Bool) (f : FacePrint ℚ) (b : Box2 ℚ)
    (hb : OnGrid s b.xmin ∧ OnGrid s b.ymin ∧ OnGrid s b.xmax ∧ OnGrid s b.ymax) (i0 j0 W : Nat) {w h : Nat}
    (hw : ceilCells (b.xmax - b.xmin) p = .ok w) (hh : ceilCells (b.ymax - b.ymin) p = .ok h) : ∀ (ns : List Nat) (t : List ℚ × List Int),
    (∀ n ∈ ns, n < w * h) → rasterLoopR C fl lr f b p i0 j0 w W ns t = rasterLoop C lr f b p i0 j0 w W ns t := by
  intro ns
  induction ns with
  | nil => intro t _; rfl
  | cons n ns ih =>
    intro t hn
    have hn0 := hn n List.mem_cons_self
    have ih' := fun t => ih t fun m hm => hn m (List.mem_cons_of_mem _ hm)
    have hw0 : 0 < w := by rcases Nat.eq_zero_or_pos w with rfl | h; simp at hn0; exact h
    obtain ⟨x1, x2, x3, _, _⟩ := grid_position hs hb.1 hb.2.2.1 hp h0 hw (Nat.mod_lt n hw0)
    obtain ⟨y1, _, _, y4, y5⟩ := grid_position hs hb.2.1 hb.2.2.2 hp h0 hh (Nat.div_lt_of_lt_mul hn0)
    have hsq : squareR fl (fl (b.xmin + fl (fl ((n % w : Nat) : ℚ) * p))) (fl (b.ymax - fl (fl ((n / w : Nat) : ℚ) * p))) p =
        square (b.xmin + ((n % w : Nat) : ℚ) * p) (b.ymax - ((n / w : Nat) : ℚ) * p) p := by
      unfold squareR square
      rw [x1, x2, y1, y4, x3, y5]
    rw [rasterLoopR_cons, hsq, rasterLoop_cons, funext ih', heightIn_square]
    unfold nth
    congr 1
    funext z
    cases z <;> rfl

theorem grid_rasterize (C : Cgal ℚ) {s : ℤ} (hs : -1074 ≤ s) {p : ℚ} (hp : OnGrid s p) (h0 : 0 < p) (lr : Bool) (f : FacePrint ℚ)
    (hf : ∀ v ∈ f.border.outer, OnGrid s v.x ∧ OnGrid s v.y) {left top : ℚ} (hl : OnGrid s left) (ht : OnGrid s top) (H W : Nat) (t : List ℚ × List Int) :
    f.rasterizeR C fl lr left top H W p t = f.rasterize C lr left top H W p t := by
  unfold rasterizeR rasterize
  split
  · rfl
  · cases hb : f.bbox with
    | none => rfl
    | some b =>
      have hg := polyBox_from _ hf b hb
      dsimp only
      rw [(grid_cells hs ht hg.2.2.2 hp h0).1, (grid_cells hs hg.1 hl hp h0).1, (grid_cells hs hg.2.2.1 hg.1 hp h0).2,
        (grid_cells hs hg.2.2.2 hg.2.1 hp h0).2]
      cases floorCells (top - b.ymax) p with
      | ub => rw [Out.ub_bind, Out.ub_bind]
      | thrown e => rw [Out.thrown_bind, Out.thrown_bind]
      | ok i0 =>
        rw [Out.ok_bind, Out.ok_bind]
        cases floorCells (b.xmin - left) p with
        | ub => rw [Out.ub_bind, Out.ub_bind]
        | thrown e => rw [Out.thrown_bind, Out.thrown_bind]
        | ok j0 =>
          rw [Out.ok_bind, Out.ok_bind]
          cases hw : ceilCells (b.xmax - b.xmin) p with
          | ub => rw [Out.ub_bind, Out.ub_bind]
          | thrown e => rw [Out.thrown_bind, Out.thrown_bind]
          | ok w =>
            rw [Out.ok_bind, Out.ok_bind]
            cases hh : ceilCells (b.ymax - b.ymin) p with
            | ub => rw [Out.ub_bind, Out.ub_bind]
            | thrown e => rw [Out.thrown_bind, Out.thrown_bind]
            | ok h =>
              rw [Out.ok_bind, Out.ok_bind, grid_loop C hs hp h0 lr f b hg i0 j0 W hw hh _ t fun n hn => List.mem_range.1 hn]

theorem grid_paint (C : Cgal ℚ) {s : ℤ} (hs : -1074 ≤ s) {p : ℚ} (hp : OnGrid s p) (h0 : 0 < p) (lr : Bool) {left top : ℚ} (hl : OnGrid s left)
    (ht : OnGrid s top) (H W : Nat) : ∀ (fs : List (FacePrint ℚ)) (t : List ℚ × List Int),
    (∀ f ∈ fs, ∀ v ∈ f.border.outer, OnGrid s v.x ∧ OnGrid s v.y) →
    Raster.paintR C fl lr left top H W p fs t = Raster.paint C lr left top H W p fs t := by
  intro fs
  induction fs with
  | nil => intro t _; rfl
  | cons f fs ih =>
    intro t hf
    unfold Raster.paintR Raster.paint
    rw [grid_rasterize C hs hp h0 lr f (hf f List.mem_cons_self) hl ht]
    congr 1
    funext t'
    exact ih t' fun g hg => hf g (List.mem_cons_of_mem _ hg)

/-! ### At most one row too many -/

/-- Differences of doubles have a relative error of 2^-53, however small they are. -/
theorem fl_sub_rel {x y : ℚ} (hx : Bits x) (hy : Bits y) : |fl (x - y) - (x - y)| ≤ 2 ^ (-53 : ℤ) * |x - y| := by
  by_cases h : (2 : ℚ) ^ (-1022 : ℤ) ≤ |x - y|
  · have := fl_rel h
    rwa [Rat.cast_id] at this
  · rw [not_le] at h
    have hmul : ∀ {q : ℚ}, Bits q → ∃ n : ℤ, q = n * 2 ^ (-1074 : ℤ) := by
      rintro q ⟨m, e, _, he, rfl⟩
      refine ⟨m * 2 ^ (e + 1074).toNat, ?_⟩
      have : (2 : ℚ) ^ e = (2 : ℚ) ^ (e + 1074).toNat * 2 ^ (-1074 : ℤ) := by
        rw [← zpow_natCast, ← zpow_add₀ (by norm_num)]
        congr 1
        omega
      rw [this]
      push_cast
      ring
    obtain ⟨a, rfl⟩ := hmul hx
    obtain ⟨b, rfl⟩ := hmul hy
    have e : (a : ℚ) * 2 ^ (-1074 : ℤ) - b * 2 ^ (-1074 : ℤ) = ((a - b : ℤ) : ℚ) * 2 ^ (-1074 : ℤ) := by push_cast; ring
    rw [e] at h ⊢
    rw [abs_mul, abs_of_pos (two_zpow_pos (K := ℚ) (-1074))] at h
    have hn : |a - b| ≤ 2 ^ 53 := by
      by_contra hc
      rw [not_le] at hc
      have hc' : (2 : ℚ) ^ 53 < |((a - b : ℤ) : ℚ)| := by exact_mod_cast hc
      have : (2 : ℚ) ^ 53 * 2 ^ (-1074 : ℤ) < 2 ^ (-1022 : ℤ) := lt_trans (mul_lt_mul_of_pos_right hc' (two_zpow_pos (-1074))) h
      rw [← zpow_natCast, ← zpow_add₀ (by norm_num)] at this
      have := (zpow_lt_zpow_iff_right₀ (by norm_num : (1 : ℚ) < 2)).1 this
      norm_num at this
    rw [bits_grid hn (by norm_num), sub_self, abs_zero]
    positivity

theorem cells_err {x y p : ℚ} (hx : Bits x) (hy : Bits y) (hxy : y ≤ x) (hp : 0 < p) :
    (1 - 2 ^ (-53 : ℤ)) ^ 2 * ((x - y) / p) - 2 ^ (-1075 : ℤ) ≤ fl (fl (x - y) / p) ∧
      fl (fl (x - y) / p) ≤ (1 + 2 ^ (-53 : ℤ)) ^ 2 * ((x - y) / p) + 2 ^ (-1075 : ℤ) := by
  have h1 := abs_le.1 (fl_sub_rel hx hy)
  rw [abs_of_nonneg (sub_nonneg.2 hxy)] at h1
  have h0 : 0 ≤ fl (x - y) / p := div_nonneg (fl_nonneg (sub_nonneg.2 hxy)) hp.le
  have h2 := fl_abs_rel (fl (x - y) / p)
  rw [Rat.cast_id, abs_of_nonneg h0] at h2
  have h2 := abs_le.1 h2
  have hu : (0 : ℚ) < 2 ^ (-53 : ℤ) := two_zpow_pos _
  have hu1 : (2 : ℚ) ^ (-53 : ℤ) < 1 := by norm_num
  generalize (2 : ℚ) ^ (-53 : ℤ) = u at *
  generalize (2 : ℚ) ^ (-1075 : ℤ) = e at *
  have e1 : (1 - u) * ((x - y) / p) ≤ fl (x - y) / p := by
    rw [← mul_div_assoc]; exact div_le_div_of_nonneg_right (by linarith) hp.le
  have e2 : fl (x - y) / p ≤ (1 + u) * ((x - y) / p) := by
    rw [← mul_div_assoc]; exact div_le_div_of_nonneg_right (by linarith) hp.le
  generalize fl (x - y) / p = q at *
  generalize (x - y) / p = r at *
  constructor
  · have := mul_le_mul_of_nonneg_left e1 (by linarith : 0 ≤ 1 - u)
    nlinarith
  · have := mul_le_mul_of_nonneg_left e2 (by linarith : 0 ≤ 1 + u)
    nlinarith

/-- Rows (or columns) of a face and of the image, both from doubles: at most one row too many. -/
theorem one_off {t a b c p : ℚ} (ht : Bits t) (ha : Bits a) (hb : Bits b) (hc : Bits c) (h1 : a ≤ t) (h2 : b ≤ a) (h3 : c ≤ b) (hp : 0 < p)
    (hN : fl (fl (t - c) / p) ≤ 2 ^ 49) : ⌊fl (fl (t - a) / p)⌋ + ⌈fl (fl (a - b) / p)⌉ ≤ ⌈fl (fl (t - c) / p)⌉ + 1 := by
  have k1 := (cells_err ht ha h1 hp).2
  have k2 := (cells_err ha hb h2 hp).2
  have k3 := (cells_err ht hc (h3.trans (h2.trans h1)) hp).1
  have hD : (t - a) / p + (a - b) / p ≤ (t - c) / p := by
    rw [← add_div]; exact div_le_div_of_nonneg_right (by linarith) hp.le
  have hD0 : 0 ≤ (t - c) / p := div_nonneg (by linarith) hp.le
  have f1 := Int.floor_le (fl (fl (t - a) / p))
  have f2 := Int.ceil_lt_add_one (fl (fl (a - b) / p))
  have f3 := Int.le_ceil (fl (fl (t - c) / p))
  have he : (2 : ℚ) ^ (-1075 : ℤ) ≤ 1 / 16 := by
    have : (2 : ℚ) ^ (-1075 : ℤ) ≤ 2 ^ (-4 : ℤ) := zpow_le_zpow_right₀ (by norm_num) (by norm_num)
    norm_num at this ⊢
    exact this
  generalize fl (fl (t - a) / p) = X1 at *
  generalize fl (fl (a - b) / p) = X2 at *
  generalize fl (fl (t - c) / p) = X at *
  generalize (t - a) / p = r1 at *
  generalize (a - b) / p = r2 at *
  generalize (t - c) / p = r at *
  generalize (2 : ℚ) ^ (-1075 : ℤ) = e at *
  norm_num at k1 k2 k3 hN
  have key : (⌊X1⌋ : ℚ) + ⌈X2⌉ < ⌈X⌉ + 2 := by linarith
  have : ⌊X1⌋ + ⌈X2⌉ < ⌈X⌉ + 2 := by exact_mod_cast key
  omega

end City
