import Verif.Model.FootText
import Verif.Lemmas.Text
/-!
Property C122: what `os << footprint` prints tells footprints apart, whatever their names: the name, the reference, the code, the box and all the faces can be found in the text.
-/
namespace City.Props
open City

section
variable {K : Type}

/-- The numbers, polygons, planes and boxes are written on one line without the letter `R`; numbers without spaces, different natural numbers differently. -/
structure PlainScribe (W : Scribe K) : Prop where
  real : ∀ x, ' ' ∉ W.real x ∧ '\n' ∉ W.real x ∧ 'R' ∉ W.real x
  int : ∀ n, '\n' ∉ W.int n ∧ 'R' ∉ W.int n
  injective : ∀ m n, W.int m = W.int n → m = n
  border : ∀ p, '\n' ∉ W.border p ∧ 'R' ∉ W.border p
  plane : ∀ p, '\n' ∉ W.plane p ∧ 'R' ∉ W.plane p
  box : ∀ b, '\n' ∉ W.box b ∧ 'R' ∉ W.box b

/-- Two face prints that look the same: same identifiers, and what is written for their borders and planes is the same. -/
def LooksLike (W : Scribe K) (f g : FacePrint K) : Prop := f.id = g.id ∧ W.border f.border = W.border g.border ∧ W.plane f.plane = W.plane g.plane

theorem cut_at {c : Char} : ∀ {a b x y : Text}, c ∉ a → c ∉ b → a ++ c :: x = b ++ c :: y → a = b ∧ x = y
  | [], [], _, _, _, _, h => ⟨rfl, (List.cons.inj h).2⟩
  | [], d :: b, _, _, _, hb, h => absurd (by rw [(List.cons.inj h).1]; exact List.mem_cons_self) hb
  | d :: a, [], _, _, ha, _, h => absurd (by rw [← (List.cons.inj h).1]; exact List.mem_cons_self) ha
  | d :: a, e :: b, _, _, ha, hb, h => by
    have h1 := List.cons.inj h
    obtain ⟨h2, h3⟩ := cut_at (fun hc => ha (List.mem_cons_of_mem _ hc)) (fun hc => hb (List.mem_cons_of_mem _ hc)) h1.2
    exact ⟨by rw [h1.1, h2], h3⟩

/-- A line of a fixed text and a word. -/
theorem line_cut {pre a b x y : Text} (ha : '\n' ∉ a) (hb : '\n' ∉ b) (h : pre ++ a ++ '\n' :: x = pre ++ b ++ '\n' :: y) : a = b ∧ x = y := by
  rw [List.append_assoc, List.append_assoc] at h
  exact cut_at ha hb (List.append_cancel_left h)

variable {W : Scribe K}

theorem face_cut (hW : PlainScribe W) (f g : FacePrint K) (x y : Text) (h : f.text W ++ x = g.text W ++ y) : LooksLike W f g ∧ x = y := by
  unfold FacePrint.text at h
  simp only [List.append_assoc, List.cons_append, List.nil_append] at h
  rw [← List.append_assoc, ← List.append_assoc "Id: ".toList] at h
  obtain ⟨h1, h⟩ := line_cut (hW.int _).1 (hW.int _).1 h
  rw [← List.append_assoc, ← List.append_assoc "The Polygon describing borders :".toList] at h
  obtain ⟨h2, h⟩ := line_cut (hW.border _).1 (hW.border _).1 h
  rw [← List.append_assoc, ← List.append_assoc "The supporting plane coefficients : ".toList] at h
  obtain ⟨h3, h⟩ := line_cut (hW.plane _).1 (hW.plane _).1 h
  exact ⟨⟨hW.injective _ _ h1, h2, h3⟩, h⟩

theorem faces_cut (hW : PlainScribe W) : ∀ (fs gs : List (FacePrint K)), fs.length = gs.length →
    (fs.flatMap fun f => f.text W ++ ['\n']) = (gs.flatMap fun f => f.text W ++ ['\n']) → List.Forall₂ (LooksLike W) fs gs
  | [], [], _, _ => .nil
  | f :: fs, g :: gs, hl, h => by
    rw [List.flatMap_cons, List.flatMap_cons, List.append_assoc, List.append_assoc] at h
    obtain ⟨h1, h2⟩ := face_cut hW f g _ _ h
    exact .cons h1 (faces_cut hW fs gs (Nat.succ.inj hl) (List.cons.inj h2).2)

theorem brick_cut (hW : PlainScribe W) (a b : Brick K) (h : a.text W = b.text W) :
    W.box a.bbox = W.box b.bbox ∧ List.Forall₂ (LooksLike W) a.faces b.faces := by
  unfold Brick.text at h
  obtain ⟨h1, h⟩ := line_cut (hW.box _).1 (hW.box _).1 h
  obtain ⟨h2, h⟩ := line_cut (hW.int _).1 (hW.int _).1 h
  exact ⟨h1, faces_cut hW _ _ (hW.injective _ _ h2) h⟩

theorem face_noR (hW : PlainScribe W) (f : FacePrint K) : 'R' ∉ f.text W := by
  unfold FacePrint.text
  simp only [List.mem_append, List.mem_cons, not_or, List.not_mem_nil, not_false_eq_true, and_true]
  exact ⟨⟨by decide, (hW.int _).2⟩, by decide, ⟨by decide, (hW.border _).2⟩, by decide, ⟨by decide, (hW.plane _).2⟩, by decide⟩

theorem brick_noR (hW : PlainScribe W) (b : Brick K) : 'R' ∉ b.text W := by
  unfold Brick.text
  simp only [List.mem_append, List.mem_cons, not_or, List.mem_flatMap, not_exists, not_and]
  exact ⟨⟨by decide, (hW.box _).2⟩, by decide, ⟨by decide, (hW.int _).2⟩, by decide, fun f _ => ⟨face_noR hW f, by decide⟩⟩

/-- What follows the name: a line break, the letter `R` and a text without this letter. -/
theorem after_name (hW : PlainScribe W) (f : FootPrint K) : ∃ u, 'R' ∉ u ∧ f.text W = "Name: ".toList ++ f.name ++ '\n' :: 'R' :: u := by
  refine ⟨"eference Point: ".toList ++ (W.real f.ref.x ++ ' ' :: (W.real f.ref.y ++ ' ' :: W.real f.ref.z)) ++ '\n' ::
    ("EPSG index: ".toList ++ W.int f.epsg ++ '\n' :: f.brick.text W), ?_, rfl⟩
  simp only [List.mem_append, List.mem_cons, not_or]
  exact ⟨⟨by decide, (hW.real _).2.2, by decide, (hW.real _).2.2, by decide, (hW.real _).2.2⟩, by decide, ⟨by decide, (hW.int _).2⟩, by decide, brick_noR hW _⟩

theorem name_cut {a b u v : Text} (hu : 'R' ∉ u) (hv : 'R' ∉ v) (h : a ++ '\n' :: 'R' :: u = b ++ '\n' :: 'R' :: v) : a = b ∧ u = v := by
  have h' := congrArg List.reverse h
  simp only [List.reverse_append, List.reverse_cons, List.append_assoc, List.cons_append, List.nil_append] at h'
  obtain ⟨h1, h2⟩ := cut_at (by rwa [List.mem_reverse]) (by rwa [List.mem_reverse]) h'
  exact ⟨List.reverse_inj.1 (List.cons.inj h2).2, List.reverse_inj.1 h1⟩

/-- C122: two footprints that print the same text have the same name, whatever is in it, the same code, as many faces with the same identifiers in the same order, and the coordinates
of the reference, the box, the borders and the planes are written in the same way. -/
theorem C122_tells (hW : PlainScribe W) (f g : FootPrint K) (h : f.text W = g.text W) :
    f.name = g.name ∧ W.real f.ref.x = W.real g.ref.x ∧ W.real f.ref.y = W.real g.ref.y ∧ W.real f.ref.z = W.real g.ref.z ∧ f.epsg = g.epsg ∧
      W.box f.brick.bbox = W.box g.brick.bbox ∧ List.Forall₂ (LooksLike W) f.brick.faces g.brick.faces := by
  have hname : f.name = g.name := by
    obtain ⟨u, hu, hfu⟩ := after_name hW f
    obtain ⟨v, hv, hgv⟩ := after_name hW g
    rw [hfu, hgv, List.append_assoc, List.append_assoc] at h
    exact (name_cut hu hv (List.append_cancel_left h)).1
  refine ⟨hname, ?_⟩
  unfold FootPrint.text at h
  rw [hname] at h
  have h := (List.cons.inj (List.append_cancel_left h)).2
  have nb : ∀ p : V3 K, '\n' ∉ W.real p.x ++ ' ' :: (W.real p.y ++ ' ' :: W.real p.z) := by
    intro p
    simp only [List.mem_append, List.mem_cons, not_or]
    exact ⟨(hW.real _).2.1, by decide, (hW.real _).2.1, by decide, (hW.real _).2.1⟩
  obtain ⟨h1, h⟩ := line_cut (nb f.ref) (nb g.ref) h
  obtain ⟨hx, h1⟩ := cut_at (hW.real _).1 (hW.real _).1 h1
  obtain ⟨hy, hz⟩ := cut_at (hW.real _).1 (hW.real _).1 h1
  obtain ⟨h2, h⟩ := line_cut (hW.int _).1 (hW.int _).1 h
  obtain ⟨h3, h4⟩ := brick_cut hW _ _ h
  exact ⟨hx, hy, hz, hW.injective _ _ h2, h3, h4⟩

/-- C122: if moreover different numbers, borders, planes and boxes are written differently, only equal footprints print the same text. -/
theorem C122_injective (hW : PlainScribe W) (hr : ∀ x y, W.real x = W.real y → x = y) (hb : ∀ p q, W.border p = W.border q → p = q)
    (hp : ∀ p q, W.plane p = W.plane q → p = q) (hx : ∀ a b, W.box a = W.box b → a = b) (f g : FootPrint K) :
    f.text W = g.text W ↔ f = g := by
  refine ⟨fun h => ?_, fun h => by rw [h]⟩
  obtain ⟨h1, h2, h3, h4, h5, h6, h7⟩ := C122_tells hW f g h
  rcases f with ⟨n, ⟨a, b, c⟩, e, ⟨bx, fs⟩⟩
  rcases g with ⟨n', ⟨a', b', c'⟩, e', ⟨bx', fs'⟩⟩
  dsimp only at h1 h2 h3 h4 h5 h6 h7
  have hfs : fs = fs' := by
    clear h h6
    induction h7 with
    | nil => rfl
    | @cons f g fs gs hfg _ ih =>
      rw [ih]
      rcases f with ⟨i, bo, pl⟩
      rcases g with ⟨i', bo', pl'⟩
      obtain ⟨e1, e2, e3⟩ := hfg
      dsimp only at e1 e2 e3
      rw [e1, hb _ _ e2, hp _ _ e3]
  rw [h1, hr _ _ h2, hr _ _ h3, hr _ _ h4, h5, hx _ _ h6, hfs]

/-- C122: the lines of a footprint whose name has no line break, in their order. -/
theorem C122_lines (W : Scribe K) (hW : PlainScribe W) (f : FootPrint K) (hn : '\n' ∉ f.name) :
    readlines (f.text W) =
      ["Name: ".toList ++ f.name, "Reference Point: ".toList ++ (W.real f.ref.x ++ ' ' :: (W.real f.ref.y ++ ' ' :: W.real f.ref.z)), "EPSG index: ".toList ++ W.int f.epsg,
        "Bounding box: ".toList ++ W.box f.brick.bbox, "Face Projections: ".toList ++ W.int f.brick.faces.length] ++
      f.brick.faces.flatMap fun g => ["Id: ".toList ++ W.int g.id, "The Polygon describing borders :".toList ++ W.border g.border,
        "The supporting plane coefficients : ".toList ++ W.plane g.plane, []] := by
  have key : f.text W = unlines (["Name: ".toList ++ f.name, "Reference Point: ".toList ++ (W.real f.ref.x ++ ' ' :: (W.real f.ref.y ++ ' ' :: W.real f.ref.z)), "EPSG index: ".toList ++ W.int f.epsg,
        "Bounding box: ".toList ++ W.box f.brick.bbox, "Face Projections: ".toList ++ W.int f.brick.faces.length] ++
      f.brick.faces.flatMap fun g => ["Id: ".toList ++ W.int g.id, "The Polygon describing borders :".toList ++ W.border g.border,
        "The supporting plane coefficients : ".toList ++ W.plane g.plane, []]) := by
    have hfaces : ∀ fs : List (FacePrint K), (fs.flatMap fun f => f.text W ++ ['\n']) = unlines (fs.flatMap fun g =>
        ["Id: ".toList ++ W.int g.id, "The Polygon describing borders :".toList ++ W.border g.border, "The supporting plane coefficients : ".toList ++ W.plane g.plane, []]) := by
      intro fs
      unfold unlines
      induction fs with
      | nil => rfl
      | cons g fs ih =>
        rw [List.flatMap_cons, ih, List.flatMap_cons, List.flatMap_append]
        congr 1
        unfold FacePrint.text
        simp only [List.flatMap_cons, List.flatMap_nil, List.append_assoc, List.cons_append, List.nil_append, List.append_nil]
    unfold FootPrint.text Brick.text
    rw [hfaces]
    unfold unlines
    rw [List.flatMap_append]
    simp only [List.flatMap_cons, List.flatMap_nil, List.append_assoc, List.cons_append, List.nil_append, List.append_nil]
  rw [key]
  refine readlines_unlines ?_
  intro l hl
  simp only [List.mem_append, List.mem_cons, List.mem_flatMap, List.not_mem_nil, or_false] at hl
  rcases hl with (rfl | rfl | rfl | rfl | rfl) | ⟨g, -, rfl | rfl | rfl | rfl⟩
  · simp only [List.mem_append, not_or]; exact ⟨by decide, hn⟩
  · simp only [List.mem_append, List.mem_cons, not_or]
    exact ⟨by decide, (hW.real _).2.1, by decide, (hW.real _).2.1, by decide, (hW.real _).2.1⟩
  · simp only [List.mem_append, not_or]; exact ⟨by decide, (hW.int _).1⟩
  · simp only [List.mem_append, not_or]; exact ⟨by decide, (hW.box _).1⟩
  · simp only [List.mem_append, not_or]; exact ⟨by decide, (hW.int _).1⟩
  · simp only [List.mem_append, not_or]; exact ⟨by decide, (hW.int _).1⟩
  · simp only [List.mem_append, not_or]; exact ⟨by decide, (hW.border _).1⟩
  · simp only [List.mem_append, not_or]; exact ⟨by decide, (hW.plane _).1⟩
  · exact List.not_mem_nil

/-- The text notation of CGAL for polygons: the number of vertices and their coordinates, with a space after each. -/
def asciiPoly (w : K → Text) (p : Poly K) : Text := natText p.length ++ ' ' :: p.flatMap fun v => w v.x ++ ' ' :: (w v.y ++ [' '])

/-- The text notation of CGAL, with numbers written by `w`: a polygon with holes is the outer boundary, the number of holes and the holes; a plane has its four coefficients, a box its
least and its greatest coordinates; those of the default box are infinite. -/
def asciiScribe (w : K → Text) : Scribe K where
  real := w
  int := natText
  border p := asciiPoly w p.outer ++ ' ' :: (natText p.holes.length ++ ' ' :: p.holes.flatMap fun h => asciiPoly w h ++ [' '])
  plane p := w p.a ++ ' ' :: (w p.b ++ ' ' :: (w p.c ++ ' ' :: w p.d))
  box
    | none => "inf inf -inf -inf".toList
    | some b => w b.xmin ++ ' ' :: (w b.ymin ++ ' ' :: (w b.xmax ++ ' ' :: w b.ymax))

/-- Different numbers are written differently, without blanks and without the letters `i` and `R`, as finite numbers are. -/
structure NumberWords (w : K → Text) : Prop where
  injective : ∀ x y, w x = w y → x = y
  plain : ∀ x, ' ' ∉ w x ∧ '\n' ∉ w x ∧ 'R' ∉ w x ∧ 'i' ∉ w x

theorem natText_plain (n : Nat) (c : Char) (hc : isDigit c = false) : c ∉ natText n := fun h => by
  have := natText_digits n c h
  rw [hc] at this
  cases this

theorem natText_injective {m n : Nat} (h : natText m = natText n) : m = n := by rw [← natVal_natText m, ← natVal_natText n, h]

variable {w : K → Text}

theorem asciiPoly_plain (hw : NumberWords w) (p : Poly K) : '\n' ∉ asciiPoly w p ∧ 'R' ∉ asciiPoly w p := by
  unfold asciiPoly
  simp only [List.mem_append, List.mem_cons, not_or, List.mem_flatMap, not_exists, not_and, List.not_mem_nil, not_false_eq_true, and_true]
  exact ⟨⟨natText_plain _ _ (by decide), by decide, fun v _ => ⟨(hw.plain _).2.1, by decide, (hw.plain _).2.1, by decide⟩⟩,
    ⟨natText_plain _ _ (by decide), by decide, fun v _ => ⟨(hw.plain _).2.2.1, by decide, (hw.plain _).2.2.1, by decide⟩⟩⟩

theorem ascii_plain (hw : NumberWords w) : PlainScribe (asciiScribe w) where
  real x := ⟨(hw.plain x).1, (hw.plain x).2.1, (hw.plain x).2.2.1⟩
  int n := ⟨natText_plain _ _ (by decide), natText_plain _ _ (by decide)⟩
  injective m n h := natText_injective h
  border p := by
    simp only [asciiScribe, List.mem_append, List.mem_cons, not_or, List.mem_flatMap, not_exists, not_and, List.not_mem_nil, not_false_eq_true, and_true]
    exact ⟨⟨(asciiPoly_plain hw _).1, by decide, natText_plain _ _ (by decide), by decide, fun h _ => ⟨(asciiPoly_plain hw h).1, by decide⟩⟩,
      ⟨(asciiPoly_plain hw _).2, by decide, natText_plain _ _ (by decide), by decide, fun h _ => ⟨(asciiPoly_plain hw h).2, by decide⟩⟩⟩
  plane p := by
    simp only [asciiScribe, List.mem_append, List.mem_cons, not_or]
    exact ⟨⟨(hw.plain _).2.1, by decide, (hw.plain _).2.1, by decide, (hw.plain _).2.1, by decide, (hw.plain _).2.1⟩,
      ⟨(hw.plain _).2.2.1, by decide, (hw.plain _).2.2.1, by decide, (hw.plain _).2.2.1, by decide, (hw.plain _).2.2.1⟩⟩
  box b := by
    cases b with
    | none => exact ⟨by simp only [asciiScribe]; decide, by simp only [asciiScribe]; decide⟩
    | some b =>
      simp only [asciiScribe, List.mem_append, List.mem_cons, not_or]
      exact ⟨⟨(hw.plain _).2.1, by decide, (hw.plain _).2.1, by decide, (hw.plain _).2.1, by decide, (hw.plain _).2.1⟩,
        ⟨(hw.plain _).2.2.1, by decide, (hw.plain _).2.2.1, by decide, (hw.plain _).2.2.1, by decide, (hw.plain _).2.2.1⟩⟩

theorem vertices_cut (hw : NumberWords w) : ∀ (p q : Poly K) (x y : Text), p.length = q.length →
    (p.flatMap fun v => w v.x ++ ' ' :: (w v.y ++ [' '])) ++ x = (q.flatMap fun v => w v.x ++ ' ' :: (w v.y ++ [' '])) ++ y → p = q ∧ x = y
  | [], [], _, _, _, h => ⟨rfl, h⟩
  | u :: p, v :: q, x, y, hl, h => by
    simp only [List.flatMap_cons, List.append_assoc, List.cons_append, List.nil_append] at h
    obtain ⟨h1, h⟩ := cut_at (hw.plain _).1 (hw.plain _).1 h
    obtain ⟨h2, h⟩ := cut_at (hw.plain _).1 (hw.plain _).1 h
    obtain ⟨h3, h4⟩ := vertices_cut hw p q x y (Nat.succ.inj hl) h
    exact ⟨by rw [h3, V2.ext (hw.injective _ _ h1) (hw.injective _ _ h2)], h4⟩

theorem asciiPoly_cut (hw : NumberWords w) (p q : Poly K) (x y : Text) (h : asciiPoly w p ++ x = asciiPoly w q ++ y) : p = q ∧ x = y := by
  unfold asciiPoly at h
  simp only [List.append_assoc, List.cons_append] at h
  obtain ⟨h1, h⟩ := cut_at (natText_plain _ _ (by decide)) (natText_plain _ _ (by decide)) h
  exact vertices_cut hw p q x y (natText_injective h1) h

theorem holes_cut (hw : NumberWords w) : ∀ (p q : List (Poly K)), p.length = q.length →
    (p.flatMap fun h => asciiPoly w h ++ [' ']) = (q.flatMap fun h => asciiPoly w h ++ [' ']) → p = q
  | [], [], _, _ => rfl
  | a :: p, b :: q, hl, h => by
    simp only [List.flatMap_cons, List.append_assoc] at h
    obtain ⟨h1, h2⟩ := asciiPoly_cut hw a b _ _ h
    rw [h1, holes_cut hw p q (Nat.succ.inj hl) (List.cons.inj h2).2]

/-- C122: in the text notation of CGAL only equal footprints print the same text, if different numbers are written differently. -/
theorem C122_ascii (hw : NumberWords w) (f g : FootPrint K) : f.text (asciiScribe w) = g.text (asciiScribe w) ↔ f = g := by
  have four : ∀ a b c d a' b' c' d' : K, w a ++ ' ' :: (w b ++ ' ' :: (w c ++ ' ' :: w d)) = w a' ++ ' ' :: (w b' ++ ' ' :: (w c' ++ ' ' :: w d')) →
      a = a' ∧ b = b' ∧ c = c' ∧ d = d' := by
    intro a b c d a' b' c' d' h
    obtain ⟨h1, h⟩ := cut_at (hw.plain _).1 (hw.plain _).1 h
    obtain ⟨h2, h⟩ := cut_at (hw.plain _).1 (hw.plain _).1 h
    obtain ⟨h3, h⟩ := cut_at (hw.plain _).1 (hw.plain _).1 h
    exact ⟨hw.injective _ _ h1, hw.injective _ _ h2, hw.injective _ _ h3, hw.injective _ _ h⟩
  have noInf : ∀ a b c d : K, "inf inf -inf -inf".toList ≠ w a ++ ' ' :: (w b ++ ' ' :: (w c ++ ' ' :: w d)) := by
    intro a b c d h
    have : "inf inf -inf -inf".toList = "inf".toList ++ ' ' :: "inf -inf -inf".toList := by decide
    rw [this] at h
    have h1 := (cut_at (by decide) (hw.plain _).1 h).1
    refine (hw.plain a).2.2.2 ?_
    rw [← h1]
    decide
  refine C122_injective (ascii_plain hw) hw.injective ?_ ?_ ?_ f g
  · rintro ⟨o, hs⟩ ⟨o', hs'⟩ h
    simp only [asciiScribe] at h
    obtain ⟨h1, h⟩ := asciiPoly_cut hw _ _ _ _ h
    obtain ⟨h2, h⟩ := cut_at (natText_plain _ _ (by decide)) (natText_plain _ _ (by decide)) (List.cons.inj h).2
    rw [h1, holes_cut hw _ _ (natText_injective h2) h]
  · rintro ⟨a, b, c, d⟩ ⟨a', b', c', d'⟩ h
    obtain ⟨h1, h2, h3, h4⟩ := four a b c d a' b' c' d' h
    rw [h1, h2, h3, h4]
  · rintro (_ | ⟨a, b, c, d⟩) (_ | ⟨a', b', c', d'⟩) h
    · rfl
    · exact absurd h (noInf _ _ _ _)
    · exact absurd h.symm (noInf _ _ _ _)
    · simp only [asciiScribe] at h
      obtain ⟨h1, h2, h3, h4⟩ := four _ _ _ _ _ _ _ _ h
      rw [h1, h2, h3, h4]

end

/-- Natural numbers are written in different words. -/
theorem numberWords_nat : NumberWords natText where
  injective x y h := natText_injective h
  plain x := ⟨natText_plain _ _ (by decide), natText_plain _ _ (by decide), natText_plain _ _ (by decide), natText_plain _ _ (by decide)⟩

/-- A footprint whose name looks like the lines that follow it. -/
def trickyPrint : FootPrint ℕ := ⟨"a\nReference Point: 0 0 0".toList, ⟨1, 2, 3⟩, 2154, ⟨none, [⟨7, ⟨[⟨0, 0⟩, ⟨2, 0⟩, ⟨0, 2⟩], []⟩, ⟨0, 0, 1, 5⟩⟩]⟩⟩

example : PlainScribe (asciiScribe natText) := ascii_plain numberWords_nat

example : trickyPrint.text (asciiScribe natText) = ("Name: a\nReference Point: 0 0 0\nReference Point: 1 2 3\nEPSG index: 2154\nBounding box: inf inf -inf -inf\n" ++
    "Face Projections: 1\nId: 7\nThe Polygon describing borders :3 0 0 2 0 0 2  0 \nThe supporting plane coefficients : 0 0 1 5\n\n").toList := by
  decide +kernel

end City.Props
