import Verif.Model.Off
import Verif.Lemmas.Print
/-! Lemmas about the OFF stream. -/
namespace City
open Spec

theorem Out.both_ok {α β : Type} {b : Bool} {x : Out α} {y : Out β} {p : α × β} :
    Out.both b x y = .ok p ↔ x = .ok p.1 ∧ y = .ok p.2 := by
  cases b <;> cases x <;> cases y <;> simp [Out.both, Prod.ext_iff]

theorem Out.both_ub {α β : Type} {b : Bool} {x : Out α} {y : Out β} (h : Out.both b x y = .ub) :
    x = .ub ∨ y = .ub := by
  cases b <;> cases x <;> cases y <;> simp_all [Out.both]

theorem mapM_ne_ub {α β : Type} {f : α → Out β} {as : List α} (h : ∀ a ∈ as, f a ≠ .ub) : Out.mapM f as ≠ .ub := by
  induction as with
  | nil => simp
  | cons a as ih =>
    rw [Out.mapM_cons]
    intro hu
    rcases Out.bind_eq_ub.1 hu with hu | ⟨b, -, hu⟩
    · exact h a (by simp) hu
    · rcases Out.bind_eq_ub.1 hu with hu | ⟨_, _, hu⟩
      · exact ih (fun a ha => h a (by simp [ha])) hu
      · cases hu

namespace Off

theorem sepText_scan {ns : List Nat} (h : ∀ n ∈ ns, n < szMod) : scanNats (sepText ns) = ns := by
  induction ns with
  | nil => simp [sepText, scanNats_nil]
  | cons n ns ih =>
    cases ns with
    | nil =>
      have := scanNats_natText (h n (by simp)) stop_nil
      rwa [List.append_nil, scanNats_nil] at this
    | cons m ms =>
      rw [sepText, scanNats_natText (h n (by simp)) (stop_space (by decide)), scanNats_space (by decide),
        ih fun k hk => h k (by simp only [List.mem_cons] at hk ⊢; tauto)]

theorem parseFace_faceText {f : Face} (h3 : 3 ≤ f.degree) (h60 : f.degree < 2 ^ 60) (h : ∀ n ∈ f.points, n < szMod) :
    parseFace (faceText f) = .ok f := by
  unfold Face.degree at *
  have h64 : f.points.length < szMod := lt_trans h60 (by decide)
  unfold parseFace faceText
  rw [scanNat_natText h64 (stop_space (by decide))]
  simp only
  rw [scanNats_space (by decide), sepText_scan h]
  unfold fillIndexes
  rw [if_neg (by omega), if_neg (by omega)]
  unfold Face.mk?
  simp only [Nat.sub_self, List.replicate_zero, List.append_nil]
  rw [if_neg (by omega)]

/-- Coordinatewise conversion. -/
def readPt (rnd : ℚ → ℚ) (p : V3 ℚ) : V3 ℚ := ⟨rnd (round6 p.x), rnd (round6 p.y), rnd (round6 p.z)⟩

/-- Finite double coordinates. -/
def Finite3 (p : V3 ℚ) : Prop := |p.x| ≤ dblMax ∧ |p.y| ≤ dblMax ∧ |p.z| ≤ dblMax

theorem scanDecs_pointText (rnd : ℚ → ℚ) {p : V3 ℚ} (h : Finite3 p) {rest : Text} (hr : Stop rest) :
    scanDecs rnd (pointText p ++ rest) =
      rnd (round6 p.x) :: rnd (round6 p.y) :: rnd (round6 p.z) :: scanDecs rnd rest := by
  unfold pointText
  rw [List.append_assoc, scanDecs_dblText rnd h.1 (by rw [List.cons_append]; exact stop_space (by decide)), List.cons_append,
    scanDecs_space rnd (by decide), List.append_assoc,
    scanDecs_dblText rnd h.2.1 (by rw [List.cons_append]; exact stop_space (by decide)), List.cons_append,
    scanDecs_space rnd (by decide), scanDecs_dblText rnd h.2.2 hr]

theorem parsePoint_pointText (rnd : ℚ → ℚ) {p : V3 ℚ} (h : Finite3 p) :
    parsePoint rnd (pointText p) = .ok (readPt rnd p) := by
  have := scanDecs_pointText rnd h stop_nil
  rw [List.append_nil, scanDecs_nil] at this
  unfold parsePoint
  rw [this]
  rfl

theorem scan_header {a b : Nat} (ha : a < szMod) (hb : b < szMod) :
    scanNats (natText a ++ ' ' :: (natText b ++ [' ', '0'])) = [a, b, 0] := by
  rw [scanNats_natText ha (stop_space (by decide)), scanNats_space (by decide),
    scanNats_natText hb (stop_space (by decide)), scanNats_space (by decide)]
  have := scanNats_natText (n := 0) (by decide) stop_nil
  rw [List.append_nil, scanNats_nil] at this
  rw [show ['0'] = natText 0 by decide, this]

/-! Characters of printed texts -/

/-- Characters of numbers. -/
def numChar (c : Char) : Bool := isDigit c || c == '.' || c == '-' || c == '+' || c == 'e'

theorem numChar_digit {c : Char} (h : isDigit c = true) : numChar c = true := by simp [numChar, h]

theorem natText_numChar (n : Nat) : ∀ c ∈ natText n, numChar c = true := fun c hc => numChar_digit (natText_digits n c hc)

theorem gText_numChar {m : Nat} (h1 : 10 ^ 5 ≤ m) (h2 : m < 10 ^ 6) (e : Int) : ∀ c ∈ gText m e, numChar c = true := by
  obtain ⟨ds, fs, o, ht, -, hd, hf, -⟩ := gText_parts h1 h2 e
  rw [ht]
  intro c hc
  simp only [List.mem_append] at hc
  rcases hc with hc | hc | hc
  · exact numChar_digit (hd c hc)
  · unfold fracText at hc
    split at hc
    · simp at hc
    · rcases List.mem_cons.1 hc with rfl | hc
      · decide
      · exact numChar_digit (hf c hc)
  · cases o with
    | none => simp [optExp] at hc
    | some e =>
      obtain ⟨-, hx, -⟩ := expDigits e
      unfold optExp expText at hc
      rcases List.mem_cons.1 hc with rfl | hc
      · decide
      · rcases List.mem_cons.1 hc with rfl | hc
        · split <;> decide
        · exact numChar_digit (hx c hc)

theorem dblText_numChar (x : ℚ) : (∀ c ∈ dblText x, numChar c = true) ∧ dblText x ≠ [] := by
  have hne : ∀ {m : Nat} (e : Int), 10 ^ 5 ≤ m → m < 10 ^ 6 → gText m e ≠ [] := by
    intro m e h1 h2 h
    obtain ⟨ds, fs, o, ht, hds, -, -, -⟩ := gText_parts h1 h2 e
    rw [h] at ht
    have := (List.append_eq_nil_iff.1 ht.symm).1
    exact hds this
  unfold dblText
  split
  · exact ⟨by intro c hc; simp at hc; subst hc; decide, by simp⟩
  · split
    · obtain ⟨b1, b2⟩ := sixDigits_bounds (q := -x) (by linarith)
      refine ⟨?_, by simp⟩
      intro c hc
      rcases List.mem_cons.1 hc with rfl | hc
      · decide
      · exact gText_numChar b1 b2 _ c hc
    · rename_i h0 hneg
      have hpos : 0 < x := lt_of_le_of_ne (not_lt.1 hneg) (Ne.symm h0)
      obtain ⟨b1, b2⟩ := sixDigits_bounds hpos
      exact ⟨gText_numChar b1 b2 _, hne _ b1 b2⟩

/-- Lines made of numbers and blanks. -/
def numLine (l : Text) : Prop := l ≠ [] ∧ ∀ c ∈ l, numChar c = true ∨ c = ' '

theorem numLine_ok {l : Text} (h : numLine l) : '\n' ∉ l ∧ isComment l = .ok false := by
  constructor
  · intro hm
    rcases h.2 _ hm with h | h
    · revert h; decide
    · revert h; decide
  · match l, h with
    | [], h => exact absurd rfl h.1
    | c :: t, h =>
      have : c ≠ '#' := by
        rintro rfl
        rcases h.2 '#' (by simp) with h | h <;> revert h <;> decide
      simp [isComment, this]

theorem numLine_point (p : V3 ℚ) : numLine (pointText p) := by
  unfold pointText
  refine ⟨by simp, ?_⟩
  intro c hc
  simp only [List.mem_append, List.mem_cons] at hc
  rcases hc with hc | rfl | hc | rfl | hc
  · exact Or.inl ((dblText_numChar _).1 c hc)
  · right; rfl
  · exact Or.inl ((dblText_numChar _).1 c hc)
  · right; rfl
  · exact Or.inl ((dblText_numChar _).1 c hc)

theorem sepText_chars (ns : List Nat) : ∀ c ∈ sepText ns, numChar c = true ∨ c = ' ' := by
  induction ns with
  | nil => simp [sepText]
  | cons n ns ih =>
    cases ns with
    | nil => intro c hc; exact Or.inl (natText_numChar n c hc)
    | cons m ms =>
      intro c hc
      rw [sepText] at hc
      simp only [List.mem_append, List.mem_cons] at hc
      rcases hc with hc | rfl | hc
      · exact Or.inl (natText_numChar n c hc)
      · right; rfl
      · exact ih c hc

theorem numLine_face (f : Face) : numLine (faceText f) := by
  unfold faceText
  refine ⟨by simp, ?_⟩
  intro c hc
  simp only [List.mem_append, List.mem_cons] at hc
  rcases hc with hc | rfl | hc
  · exact Or.inl (natText_numChar _ c hc)
  · right; rfl
  · exact sepText_chars _ c hc

theorem numLine_sizes (a b : Nat) : numLine (natText a ++ ' ' :: (natText b ++ [' ', '0'])) := by
  refine ⟨by simp, ?_⟩
  intro c hc
  simp only [List.mem_append, List.mem_cons, List.not_mem_nil, or_false] at hc
  rcases hc with hc | rfl | hc | rfl | rfl
  · exact Or.inl (natText_numChar _ c hc)
  · right; rfl
  · exact Or.inl (natText_numChar _ c hc)
  · right; rfl
  · left; decide

theorem parseLines_keep {ls : List Text} (h : ∀ l ∈ ls, isComment l = .ok false) : parseLines ls = .ok ls := by
  induction ls with
  | nil => rfl
  | cons l ls ih =>
    rw [parseLines, h l (by simp), Out.ok_bind, ih fun l hl => h l (by simp [hl]), Out.ok_bind]
    rfl

/-- The lines of a written mesh after the comment. -/
def bodyLines (m : Mesh) : List Text :=
  ['O', 'F', 'F'] :: (natText m.points.length ++ ' ' :: (natText m.faces.length ++ [' ', '0'])) ::
    (m.points.map pointText ++ m.faces.map faceText)

theorem parse_write {m : Mesh} (hn : '\n' ∉ m.name) : parseLines (readlines (write m)) = .ok (bodyLines m) := by
  have hbody : ∀ l ∈ bodyLines m, '\n' ∉ l ∧ isComment l = .ok false := by
    intro l hl
    simp only [bodyLines, List.mem_cons, List.mem_append, List.mem_map] at hl
    rcases hl with rfl | rfl | ⟨p, -, rfl⟩ | ⟨f, -, rfl⟩
    · decide
    · exact numLine_ok (numLine_sizes _ _)
    · exact numLine_ok (numLine_point p)
    · exact numLine_ok (numLine_face f)
  have e : write m = unlines ((['#', ' ', 'M', 'e', 's', 'h', ':', ' '] ++ m.name) :: bodyLines m) := by
    simp [write, unlines, headerLines, bodyLines]
  rw [e, readlines_unlines, parseLines]
  · simp only [List.cons_append, isComment, Out.ok_bind]
    rw [parseLines_keep fun l hl => (hbody l hl).2]
    rfl
  · intro l hl
    rcases List.mem_cons.1 hl with rfl | hl
    · simpa using hn
    · exact (hbody l hl).1

end Off
end City
