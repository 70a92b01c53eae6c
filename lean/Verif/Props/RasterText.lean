import Verif.Model.RasterText
import Mathlib.Tactic.Linarith
import Mathlib.Tactic.NormNum
/-!
C79: printing a raster print.
-/
set_option linter.unusedSectionVars false
namespace City.Props
open City Raster
variable {K : Type}

/-- Texts one after the other, with a separator between them. -/
def joinWith (sep : Text) : List Text → Text
  | [] => []
  | [t] => t
  | t :: u :: us => t ++ sep ++ joinWith sep (u :: us)

/-- The numbers of the row `i` of an image of the width `w`, written with a function. -/
def rowTexts (fmt : K → Text) (image : List K) (w i : Nat) : List Text := ((image.drop (i * w)).take w).map fmt

/-- An image as nested lists: `[[a, b],` newline ` [c, d]]`. -/
def matrixText (fmt : K → Text) (image : List K) (h w : Nat) : Text :=
  '[' :: joinWith [',', '\n', ' '] ((List.range h).map fun i => '[' :: joinWith [',', ' '] (rowTexts fmt image w i) ++ [']']) ++ [']', '\n']

/-- What is printed before the image, with the format of the stream. -/
def headerText (N : NumFmt K) (F : FmtFlags) (p : Nat) (r : Raster K) : Text :=
  "Name : ".toList ++ r.name ++ ['\n'] ++
    "Reference (Top left) Point : ".toList ++ joinWith [' '] [N.real F p r.ref.x, N.real F p r.ref.y, N.real F p r.ref.z] ++ ['\n'] ++
    "EPSG code : ".toList ++ N.int F r.epsg ++ ['\n'] ++
    "Height : ".toList ++ N.int F r.height ++ ['\n'] ++
    "Width : ".toList ++ N.int F r.width ++ ['\n'] ++
    "Image Matrix : \n".toList

/-- C79 as stated: printing a raster print with a complete image writes the header and the matrix, and leaves the format of the stream as it was.
False: `C79_refuted`, `C79_refuted_empty`. -/
def C79_full : Prop := ∀ (K : Type) (N : NumFmt K) (r : Raster K) (s : OStream), r.image.length = r.height * r.width →
  ∃ t, r.print N s = (t, .ok ()) ∧
    t.text = s.text ++ headerText N s.flags s.prec r ++ matrixText (N.real { s.flags with fixed := true } 6) r.image r.height r.width ∧
    t.flags = s.flags ∧ t.prec = s.prec

theorem joinWith_cons (sep : Text) (t : Text) {us : List Text} (h : us ≠ []) : joinWith sep (t :: us) = t ++ sep ++ joinWith sep us := by
  cases us with
  | nil => exact absurd rfl h
  | cons u us => rfl

theorem joinWith_append (sep : Text) : ∀ {a b : List Text}, a ≠ [] → b ≠ [] → joinWith sep (a ++ b) = joinWith sep a ++ sep ++ joinWith sep b
  | [], _, h, _ => absurd rfl h
  | [t], b, _, hb => by rw [List.singleton_append, joinWith_cons sep t hb]; rfl
  | t :: u :: us, b, _, hb => by
    have h1 := joinWith_append sep (a := u :: us) (b := b) (by simp) hb
    rw [List.cons_append, joinWith_cons sep t (by simp), h1, joinWith_cons sep t (by simp)]
    simp [List.append_assoc]

theorem header_text (N : NumFmt K) (r : Raster K) (s : OStream) :
    setFixed (putHeader N r s) = ⟨s.text ++ headerText N s.flags s.prec r ++ ['[', '['], { s.flags with fixed := true }, 6⟩ := by
  have e : "[[".toList = ['[', '['] := by decide
  unfold headerText
  simp only [setFixed, putHeader, OStream.put, OStream.putReal, OStream.putInt, OStream.putPoint, joinWith, e]
  generalize "Name : ".toList = a1
  generalize "Reference (Top left) Point : ".toList = a2
  generalize "EPSG code : ".toList = a3
  generalize "Height : ".toList = a4
  generalize "Width : ".toList = a5
  generalize "Image Matrix : \n".toList = a6
  simp only [List.append_assoc]

/-- The texts of the pixels from `it` on. -/
theorem pixelLoop_ok (N : NumFmt K) (r : Raster K) : ∀ (n it : Nat) (s : OStream), it + n ≤ r.image.length →
    pixelLoop N r n it s = ({ s with text := s.text ++ ((((r.image.drop it).take n).zipIdx it).flatMap fun x =>
      N.real s.flags s.prec x.1 ++ pixelEnd r.height r.width x.2) }, .ok ()) := by
  intro n
  induction n with
  | zero => intro it s _; simp [pixelLoop]
  | succ n ih =>
    intro it s h
    have hlt : it < r.image.length := by omega
    unfold pixelLoop
    rw [List.getElem?_eq_getElem hlt]
    simp only
    rw [ih (it + 1) _ (by omega), List.drop_eq_getElem_cons hlt, List.take_succ_cons, List.zipIdx_cons, List.flatMap_cons]
    simp only [OStream.putReal, OStream.put, List.append_assoc]

/-- One row: all its separators but the last. -/
theorem row_flat (fmt : K → Text) (h w : Nat) : ∀ (l : List K) (k i : Nat), k + l.length = w → l ≠ [] →
    ((l.zipIdx (i * w + k)).flatMap fun x => fmt x.1 ++ pixelEnd h w x.2) =
      joinWith [',', ' '] (l.map fmt) ++ pixelEnd h w (i * w + w - 1) := by
  intro l
  induction l with
  | nil => intro k i _ h; exact absurd rfl h
  | cons x l ih =>
    intro k i hk _
    rw [List.length_cons] at hk
    cases l with
    | nil =>
      simp only [List.length_nil] at hk
      have : i * w + w - 1 = i * w + k := by omega
      rw [this]
      simp [joinWith]
    | cons y l =>
      have hmod : (i * w + k + 1) % w ≠ 0 := by
        simp only [List.length_cons] at hk
        rw [add_assoc, Nat.mul_comm, Nat.mul_add_mod, Nat.mod_eq_of_lt (by omega)]
        omega
      have e : pixelEnd h w (i * w + k) = [',', ' '] := by unfold pixelEnd; rw [if_pos hmod]
      have := ih (k + 1) i (by simp only [List.length_cons] at hk ⊢; omega) (by simp)
      rw [List.zipIdx_cons, List.flatMap_cons, add_assoc, this]
      simp only
      rw [e, List.map_cons (l := y :: l), joinWith_cons [',', ' '] (fmt x) (by simp)]
      simp only [List.append_assoc]

/-- The rows from `i` on. -/
theorem rows_flat (fmt : K → Text) (h w : Nat) (hw : 0 < w) (image : List K) (hl : image.length = h * w) : ∀ (n i : Nat), i + (n + 1) = h →
    ((((image.drop (i * w)).take ((n + 1) * w)).zipIdx (i * w)).flatMap fun x => fmt x.1 ++ pixelEnd h w x.2) ++ [']'] =
      (joinWith [',', '\n', ' '] (((List.range' i (n + 1)).map fun i => '[' :: joinWith [',', ' '] (rowTexts fmt image w i) ++ [']'])) ++ [']']).tail := by
  intro n
  induction n with
  | zero =>
    intro i hi
    have hlen : ((image.drop (i * w)).take w).length = w := by
      rw [List.length_take, List.length_drop, hl, ← hi]
      simp only [Nat.zero_add, Nat.add_mul, Nat.one_mul]
      omega
    have h1 := row_flat fmt h w ((image.drop (i * w)).take w) 0 i (by omega) (by intro h0; rw [h0] at hlen; simp at hlen; omega)
    rw [Nat.add_zero] at h1
    rw [Nat.zero_add, Nat.one_mul, h1]
    have e : pixelEnd h w (i * w + w - 1) = [']'] := by
      have e1 : i * w + w - 1 + 1 = w * h := by rw [← hi, Nat.mul_add, Nat.mul_comm w i]; simp; omega
      unfold pixelEnd
      rw [e1, if_neg (by simp), if_neg (by simp)]
    rw [e]
    simp [rowTexts, joinWith]
  | succ n ih =>
    intro i hi
    have hge : i * w + (n + 2) * w = image.length := by rw [hl, ← hi]; ring
    have hlen : ((image.drop (i * w)).take w).length = w := by
      rw [List.length_take, List.length_drop]
      have : (n + 2) * w = (n + 1) * w + w := by ring
      have : (n + 1) * w = n * w + w := by ring
      omega
    have h1 := row_flat fmt h w ((image.drop (i * w)).take w) 0 i (by omega) (by intro h0; rw [h0] at hlen; simp at hlen; omega)
    rw [Nat.add_zero] at h1
    have h2 := ih (i + 1) (by omega)
    have e : pixelEnd h w (i * w + w - 1) = [']', ',', '\n', ' ', '['] := by
      have e1 : i * w + w - 1 + 1 = w * (i + 1) := by rw [Nat.mul_add, Nat.mul_comm w i]; omega
      unfold pixelEnd
      rw [e1, if_neg (by simp), if_pos]
      intro h0
      have := Nat.eq_of_mul_eq_mul_left hw h0
      omega
    have split : (image.drop (i * w)).take ((n + 1 + 1) * w) =
        (image.drop (i * w)).take w ++ (image.drop ((i + 1) * w)).take ((n + 1) * w) := by
      have : (n + 1 + 1) * w = w + (n + 1) * w := by ring
      rw [this, List.take_add, List.drop_drop]
      congr 3
      rw [Nat.add_mul, Nat.one_mul]
    rw [split, List.zipIdx_append, List.flatMap_append, h1, hlen, e]
    have e2 : i * w + w = (i + 1) * w := by ring
    rw [e2, List.append_assoc, h2, List.range'_succ (n := n + 1), List.map_cons, joinWith_cons _ _ (by simp [List.range'])]
    have hne : ∀ (l : List Nat), l ≠ [] → ∃ t, joinWith [',', '\n', ' '] (l.map fun i => '[' :: joinWith [',', ' '] (rowTexts fmt image w i) ++ [']']) = '[' :: t := by
      intro l hl
      cases l with
      | nil => exact absurd rfl hl
      | cons a l =>
        cases l with
        | nil => exact ⟨_, rfl⟩
        | cons b l => exact ⟨_, rfl⟩
    obtain ⟨t, ht⟩ := hne (List.range' (i + 1) (n + 1)) (by simp [List.range'])
    rw [ht]
    simp [rowTexts]

/-- C79, the part that holds: for an image that is complete and not empty, exactly the header and the matrix are written, all the pixels in
order with six decimals, and the flags of the stream are restored. The precision of the stream is 6 afterwards. -/
theorem C79_text_partial (N : NumFmt K) (r : Raster K) (s : OStream) (hlen : r.image.length = r.height * r.width)
    (hh : 0 < r.height) (hw : 0 < r.width) :
    ∃ t, r.print N s = (t, .ok ()) ∧
      t.text = s.text ++ headerText N s.flags s.prec r ++ matrixText (N.real { s.flags with fixed := true } 6) r.image r.height r.width ∧
      t.flags = s.flags ∧ t.prec = 6 := by
  unfold Raster.print
  rw [header_text, pixelLoop_ok N r _ 0 _ (by omega)]
  refine ⟨_, rfl, ?_, rfl, rfl⟩
  obtain ⟨n, hn⟩ : ∃ n, r.height = n + 1 := ⟨r.height - 1, by omega⟩
  have := rows_flat (N.real { s.flags with fixed := true } 6) r.height r.width hw r.image hlen n 0 (by omega)
  rw [Nat.zero_mul, ← hn] at this
  have e : (']' :: ['\n'] : Text) = [']'] ++ ['\n'] := rfl
  simp only [OStream.put, e]
  rw [List.append_assoc, ← List.append_assoc _ [']'] ['\n'], ← List.append_assoc, this]
  unfold matrixText
  rw [List.range_eq_range', hn, List.range'_succ, List.map_cons]
  cases List.range' (0 + 1) n with
  | nil => simp [joinWith]
  | cons a l => simp [joinWith]

/-- C79: an image with fewer pixels than announced throws out_of_range, after the header and the pixels there are; the stream is left in
the fixed format. -/
theorem C79_short (N : NumFmt K) (r : Raster K) (s : OStream) (hlen : r.image.length < r.height * r.width) :
    ∃ t u, r.print N s = (t, .thrown .outOfRange) ∧ t.text = s.text ++ headerText N s.flags s.prec r ++ ['[', '['] ++ u ∧
      t.flags = { s.flags with fixed := true } ∧ t.prec = 6 := by
  have main : ∀ (n it : Nat) (s : OStream), it ≤ r.image.length → r.image.length < it + n →
      ∃ t u, pixelLoop N r n it s = (t, .thrown .outOfRange) ∧ t.text = s.text ++ u ∧ t.flags = s.flags ∧ t.prec = s.prec := by
    intro n
    induction n with
    | zero => intro it s h1 h2; omega
    | succ n ih =>
      intro it s h1 h2
      unfold pixelLoop
      by_cases hlt : it < r.image.length
      · rw [List.getElem?_eq_getElem hlt]
        obtain ⟨t, u, e1, e2, e3, e4⟩ := ih (it + 1) ((s.putReal N r.image[it]).put (pixelEnd r.height r.width it)) (by omega) (by omega)
        refine ⟨t, N.real s.flags s.prec r.image[it] ++ (pixelEnd r.height r.width it ++ u), e1, ?_, e3, e4⟩
        rw [e2]
        simp only [OStream.putReal, OStream.put, List.append_assoc]
      · rw [List.getElem?_eq_none (by omega)]
        exact ⟨s, [], rfl, by simp, rfl, rfl⟩
  unfold Raster.print
  rw [header_text]
  obtain ⟨t, u, e1, e2, e3, e4⟩ := main (r.height * r.width) 0 ⟨s.text ++ headerText N s.flags s.prec r ++ ['[', '['], { s.flags with fixed := true }, 6⟩
    (by omega) (by omega)
  rw [e1]
  exact ⟨t, u, rfl, e2, e3, e4⟩

/-- C79: an image without pixels is printed as `[[]`: the brackets do not match. -/
theorem C79_empty (N : NumFmt K) (r : Raster K) (s : OStream) (h0 : r.height * r.width = 0) :
    ∃ t, r.print N s = (t, .ok ()) ∧ t.text = s.text ++ headerText N s.flags s.prec r ++ "[[]\n".toList ∧ t.flags = s.flags ∧ t.prec = 6 := by
  unfold Raster.print
  rw [header_text, h0]
  exact ⟨_, rfl, by simp [OStream.put], rfl, rfl⟩

/-- A way to write numbers, for the examples: the flags and the precision are shown. -/
def demoFmt : NumFmt ℕ := ⟨fun F p x => natText x ++ (if F.fixed then '.' :: List.replicate p '0' else []), fun _ n => natText n⟩

/-- A raster print of two rows and three columns. -/
def demoRaster : Raster ℕ := ⟨['r'], ⟨1, 2, 3⟩, 2154, 2, 3, 1, [1, 2, 3, 4, 5, 6], [], false⟩

/-- C79 is false: the precision of the stream is changed for good. -/
theorem C79_refuted : ¬ C79_full := by
  intro h
  obtain ⟨t, h1, _, _, h4⟩ := h ℕ demoFmt demoRaster ⟨[], ⟨false, 0⟩, 3⟩ rfl
  obtain ⟨u, k1, _, _, k4⟩ := C79_text_partial demoFmt demoRaster ⟨[], ⟨false, 0⟩, 3⟩ rfl (by decide) (by decide)
  rw [h1] at k1
  cases k1
  rw [k4] at h4
  cases h4

/-- C79 is false also when the precision of the stream is 6: a raster print without rows. -/
theorem C79_refuted_empty : ∃ (r : Raster ℕ) (s t : OStream), r.image.length = r.height * r.width ∧ s.prec = 6 ∧ r.print demoFmt s = (t, .ok ()) ∧
    t.text ≠ s.text ++ headerText demoFmt s.flags s.prec r ++ matrixText (demoFmt.real { s.flags with fixed := true } 6) r.image r.height r.width := by
  obtain ⟨t, h1, h2, _, _⟩ := C79_empty demoFmt { demoRaster with height := 0, image := [] } ⟨[], ⟨false, 0⟩, 6⟩ rfl
  refine ⟨_, _, t, rfl, rfl, h1, ?_⟩
  rw [h2]
  intro h
  rw [List.append_cancel_left_eq] at h
  revert h
  simp [matrixText, joinWith]

/-- The hypotheses are met, and this is the matrix. -/
example : ∃ t, demoRaster.print demoFmt ⟨[], ⟨false, 0⟩, 6⟩ = (t, .ok ()) ∧
    t.text = headerText demoFmt ⟨false, 0⟩ 6 demoRaster ++ matrixText (demoFmt.real ⟨true, 0⟩ 6) demoRaster.image 2 3 := by
  obtain ⟨t, h1, h2, _⟩ := C79_text_partial demoFmt demoRaster ⟨[], ⟨false, 0⟩, 6⟩ rfl (by decide) (by decide)
  exact ⟨t, h1, by rw [h2]; rfl⟩

example : matrixText (fun x : Char => [x]) ['1', '2', '3', '4', '5', '6'] 2 3 = "[[1, 2, 3],\n [4, 5, 6]]\n".toList := by decide

end City.Props
